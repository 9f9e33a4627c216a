import Verif.Hash.Sha2Final
namespace Verif.Hash.Sha2
open Verif Verif.Hash Verif.Hash.Fips

theorem state512_list (iv : V 64) (m : List Nat) (hm : ∀ b ∈ m, b < 256) :
    (state512 iv m).toList = hashState 128 16 true (sha512P true).comp iv.toList m :=
  (hashState_rep V.toList 128 16 true (sha512P true).comp (compress Fips.sha512) (fun H b hl hb => comp512 true H b hl hb) iv m
    hm).symm

theorem name224 : "SHA-512/224".toList.map Char.toNat = [83, 72, 65, 45, 53, 49, 50, 47, 50, 50, 52] := by decide
theorem name256 : "SHA-512/256".toList.map Char.toNat = [83, 72, 65, 45, 53, 49, 50, 47, 50, 53, 54] := by decide

def ivX : List (BitVec 64) := iv512.map (· ^^^ 0xa5a5a5a5a5a5a5a5#64)

theorem iv512_224_eq : iv512_224 = (iv512t "SHA-512/224").toList := by
  unfold iv512t
  rw [name224, state512_list _ _ (by decide)]
  have : iv512_224 = hashState 128 16 true (sha512P true).comp ivX [83, 72, 65, 45, 53, 49, 50, 47, 50, 50, 52] := by
    decide +kernel
  refine this.trans (congrArg (fun v => hashState 128 16 true (sha512P true).comp v _) ?_)
  rw [ivX, iv512_eq]; rfl

theorem iv512_256_eq : iv512_256 = (iv512t "SHA-512/256").toList := by
  unfold iv512t
  rw [name256, state512_list _ _ (by decide)]
  have : iv512_256 = hashState 128 16 true (sha512P true).comp ivX [83, 72, 65, 45, 53, 49, 50, 47, 50, 53, 54] := by
    decide +kernel
  refine this.trans (congrArg (fun v => hashState 128 16 true (sha512P true).comp v _) ?_)
  rw [ivX, iv512_eq]; rfl

end Verif.Hash.Sha2
