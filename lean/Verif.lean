import Verif.Go.Int64
import Verif.Go.Int8
import Verif.Go.Limbs
import Verif.Go.Outcome
import Verif.Model.CT
import Verif.Model.Cipher
import Verif.Model.Conc
import Verif.Model.Cost
import Verif.Model.Dsa
import Verif.Model.Engine
import Verif.Model.Env
import Verif.Model.Field
import Verif.Model.Group
import Verif.Model.Heap
import Verif.Model.Hex
import Verif.Model.IntWidth
import Verif.Model.KeyHeap
import Verif.Model.Keys
import Verif.Model.MathUtils
import Verif.Model.Misc
import Verif.Model.Nil
import Verif.Model.NilGroup
import Verif.Model.PApi
import Verif.Model.PGroup
import Verif.Model.PShared
import Verif.Model.Pointers
import Verif.Model.Print
import Verif.Model.Reader
import Verif.Model.Recode
import Verif.Model.Scalar
import Verif.Model.Tables
import Verif.Model.Trace
import Verif.Proofs.AffineX
import Verif.Proofs.Attack
import Verif.Proofs.Avg
import Verif.Proofs.CT
import Verif.Proofs.Cbc
import Verif.Proofs.Cipher
import Verif.Proofs.Compare
import Verif.Proofs.Conc
import Verif.Proofs.Cost
import Verif.Proofs.CostBounds
import Verif.Proofs.CostCalls
import Verif.Proofs.CostExact
import Verif.Proofs.CostSteps
import Verif.Proofs.Dsa
import Verif.Proofs.Eavesdrop
import Verif.Proofs.Field
import Verif.Proofs.FieldCodec
import Verif.Proofs.FieldDec
import Verif.Proofs.FieldEnc
import Verif.Proofs.FieldMul
import Verif.Proofs.Forking
import Verif.Proofs.Group
import Verif.Proofs.HalfTable
import Verif.Proofs.Hex
import Verif.Proofs.IntWidth
import Verif.Proofs.Interfere
import Verif.Proofs.Keys
import Verif.Proofs.Leak
import Verif.Proofs.LimbCheck
import Verif.Proofs.MathUtils
import Verif.Proofs.Naf
import Verif.Proofs.Oracle
import Verif.Proofs.Order
import Verif.Proofs.PApi
import Verif.Proofs.PGroup
import Verif.Proofs.PMemory
import Verif.Proofs.PShared
import Verif.Proofs.PTables
import Verif.Proofs.PointCodec
import Verif.Proofs.RandomOracle
import Verif.Proofs.Recode
import Verif.Proofs.Scalar
import Verif.Proofs.ScalarIO
import Verif.Proofs.ScalarMul
import Verif.Proofs.Secrecy
import Verif.Proofs.Solo
import Verif.Proofs.Steps
import Verif.Proofs.Tables
import Verif.Proofs.Trace
import Verif.Props.Accept
import Verif.Props.Adaptive
import Verif.Props.Attack
import Verif.Props.Binding
import Verif.Props.Cbc
import Verif.Props.Cipher
import Verif.Props.Commit
import Verif.Props.Conc
import Verif.Props.Cost
import Verif.Props.Distribution
import Verif.Props.Dsa
import Verif.Props.Eavesdrop
import Verif.Props.EndToEnd
import Verif.Props.Engine
import Verif.Props.Field
import Verif.Props.Forgery
import Verif.Props.GiveAway
import Verif.Props.Group
import Verif.Props.GroupApi
import Verif.Props.Guess
import Verif.Props.IntWidth
import Verif.Props.Interfere
import Verif.Props.KeyMemory
import Verif.Props.Leak
import Verif.Props.Many
import Verif.Props.ManySeeds
import Verif.Props.MathUtils
import Verif.Props.Memory
import Verif.Props.Misc
import Verif.Props.Nil
import Verif.Props.NilGroup
import Verif.Props.Order
import Verif.Props.Panics
import Verif.Props.Pointers
import Verif.Props.Print
import Verif.Props.Races
import Verif.Props.Refuse
import Verif.Props.Repeat
import Verif.Props.Resend
import Verif.Props.Rfc
import Verif.Props.Scalar
import Verif.Props.Secrecy
import Verif.Props.Seed
import Verif.Props.SelectAll
import Verif.Props.Text
import Verif.Props.Trace
import Verif.Props.Unique
import Verif.Props.WaitFree
import Verif.Props.WeakKeys
import Verif.Props.Wiretap
import Verif.Props.WrongKey
import Verif.Real.Aes
import Verif.Real.Env
import Verif.Real.Keccak
import Verif.Real.Sha2
import Verif.Spec.Attack
import Verif.Spec.Base
import Verif.Spec.Bytes
import Verif.Spec.Calls
import Verif.Spec.Cost
import Verif.Spec.Curve
import Verif.Spec.Eavesdrop
import Verif.Spec.FieldRep
import Verif.Spec.GroupRep
import Verif.Spec.Interfere
import Verif.Spec.Law
import Verif.Spec.Leak
import Verif.Spec.Many
import Verif.Spec.Memory
import Verif.Spec.Naf
import Verif.Spec.Oracle
import Verif.Spec.Order
import Verif.Spec.Prime
import Verif.Spec.RandomOracle
import Verif.Spec.Rfc8032
import Verif.Spec.Scheme
import Verif.Spec.Secrecy
import Verif.Spec.SharedCalls
import Verif.Spec.Steps
import Verif.Spec.TableRep
import Verif.Spec.Text
import Verif.Spec.Toy
import Verif.Spec.Trace
import Verif.Spec.Wiretap
