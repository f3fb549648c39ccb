import Verif.Model.PApi

/-!
# What calls return in a program without concurrency

The functions are those of Model/Dsa, Model/Keys and Model/Cipher, which the other properties are about, applied to the contents of the
argument arrays.
-/

set_option autoImplicit false

namespace Ed

/-- The bytes at an address of the initial memory. -/
def bytesAt (h : PHeap) (a : Addr) : Bytes :=
  match h.get a with
  | some (.bytes b) => b
  | _ => []

/-- The key pair at its addresses. -/
def PPair.value (h : PHeap) (k : PPair) : KeyPair := ⟨k.priv.map fun a => newPrivateKey (bytesAt h a), newPublicKey (bytesAt h k.pub)⟩

/-- The outcome of an action with its result converted. -/
def Act.map {α β : Type} (f : α → β) (x : Act α) : Act β := Act.bind x fun a => Act.lift (.ok (f a))

/-- The outcome of one call, on readers. -/
def Call.value (E : Env) (h : PHeap) : Call → Act Res
  | .derive k => Act.map (fun p => .bytes p.raw) (Act.lift (derivePublicKey E (k.map fun a => newPrivateKey (bytesAt h a))))
  | .sign kp m => Act.map .sig (Act.lift (Ed.sign E (kp.value h) (bytesAt h m)))
  | .verify kp m r s => Act.map .bool (Act.lift (Ed.verify E (kp.value h).pub (bytesAt h m) ⟨bytesAt h r, bytesAt h s⟩))
  | .canonical r s => Act.map .sig (Act.lift (makeSignatureCanonical ⟨bytesAt h r, bytesAt h s⟩))
  | .sharedKey n k p salt => Act.map .bytes
      (Act.lift (getSharedKey E n (k.map fun a => newPrivateKey (bytesAt h a)) (newPublicKey (bytesAt h p)) (bytesAt h salt)))
  | .encrypt snd rcp n seed i => Act.map .bytes (BlockCipher.encrypt E ⟨snd.value h, rcp.value h, n, seed⟩ (bytesAt h i))
  | .decrypt snd rcp n seed i => Act.map .bytes (Act.lift (BlockCipher.decrypt E ⟨snd.value h, rcp.value h, n, seed⟩ (bytesAt h i)))
  | .generate seed => Act.map .keyPair (generateKeyPair E seed)

/-- The outcomes of calls one after the other. -/
def Call.values (E : Env) (h : PHeap) : List Call → World → List (Out Res) × World
  | [], w => ([], w)
  | c :: cs, w => ((c.value E h w).1 :: (values E h cs (c.value E h w).2).1, (values E h cs (c.value E h w).2).2)

/-- An address of a byte array in the initial memory. -/
def IsBytes (h : PHeap) (a : Addr) : Prop := a.region = 0 ∧ ∃ b, h.get a = some (.bytes b)

/-- The arguments of a call exist in the initial memory. -/
def Call.Args (h : PHeap) : Call → Prop
  | .derive k => ∀ a ∈ k, IsBytes h a
  | .sign kp m => (∀ a ∈ kp.priv, IsBytes h a) ∧ IsBytes h kp.pub ∧ IsBytes h m
  | .verify kp m r s => IsBytes h kp.pub ∧ IsBytes h m ∧ IsBytes h r ∧ IsBytes h s
  | .canonical r s => IsBytes h r ∧ IsBytes h s
  | .sharedKey _ k p salt => (∀ a ∈ k, IsBytes h a) ∧ IsBytes h p ∧ IsBytes h salt
  | .encrypt snd rcp _ _ i => (∀ a ∈ snd.priv, IsBytes h a) ∧ IsBytes h rcp.pub ∧ IsBytes h i
  | .decrypt snd rcp _ _ i => (∀ a ∈ rcp.priv, IsBytes h a) ∧ IsBytes h snd.pub ∧ IsBytes h i
  | .generate _ => True

end Ed
