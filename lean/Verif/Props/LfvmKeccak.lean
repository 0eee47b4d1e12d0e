import Verif.Props.LfvmCaches
import Verif.Proofs.KeccakAbc

/-!
# The hash function of the long-form EVM (C72)
-/

namespace Tosca

open Tosca.Model.Lfvm.Keccak Tosca.Model.Lfvm.Hash

/-- C72.  The C implementation computes Keccak-256 of messages of any length. -/
theorem C72_keccak256 (data : List Byte) : keccak256 data = Spec.Keccak.keccak256 data := Proofs.Lfvm.Keccak.keccak256_ok data

/-- C72.  So does the one specialised to 32 bytes. -/
theorem C72_keccak32 (data : List Byte) (h : data.length = 32) : keccak256For32byte data = Spec.Keccak.keccak256 data := by
  rw [← C72_keccak256]
  unfold keccak256For32byte keccak256
  rw [Proofs.Lfvm.Keccak.keccak32_ok data h]

/-- C72.  And the Go function, which leaves the hash of the empty message to another implementation. -/
theorem C72_go (empty : List Byte) (h : empty = Spec.Keccak.keccak256 []) (data : List Byte) : goKeccak256 empty data = Spec.Keccak.keccak256 data := by
  unfold goKeccak256
  split
  · rename_i hd
    rw [h, List.length_eq_zero_iff.1 hd]
  · exact C72_keccak256 data

/-- C72.  The hash has 32 bytes. -/
theorem C72_length (data : List Byte) : (keccak256 data).length = 32 := by
  rw [C72_keccak256]
  unfold Spec.Keccak.keccak256
  rw [List.length_map, List.length_range]

/-- C70, C72.  The interpreter's SHA3 cache, on top of these functions, answers every sequence of requests with the Keccak-256 hashes. -/
theorem C72_sha3 (empty : List Byte) (h : empty = Spec.Keccak.keccak256 []) (hash0 : List Byte) (capacity32 capacity64 : Nat) (data : List (List Byte)) :
    ∃ s s', newSha3 (goKeccak256 empty) keccak256For32byte hash0 capacity32 capacity64 = some s ∧
      s.hashes (goKeccak256 empty) keccak256For32byte data = some (data.map Spec.Keccak.keccak256, s') := by
  have := C70_sha3 (goKeccak256 empty) keccak256For32byte hash0 capacity32 capacity64
    (fun d hd => by rw [C72_keccak32 d hd, C72_go empty h]) data
  rw [List.map_congr_left (fun d _ => C72_go empty h d)] at this
  exact this

/-- The specification on a published test vector, "abc" (the rounds are in `Proofs/KeccakAbc.lean`). -/
example : Spec.Keccak.keccak256 [0x61, 0x62, 0x63] =
    [0x4e, 0x03, 0x65, 0x7a, 0xea, 0x45, 0xa9, 0x4f, 0xc7, 0xd4, 0x7b, 0xa8, 0x26, 0xc8, 0xd6, 0x67,
     0xc0, 0xd1, 0xe6, 0xe3, 0x3a, 0x64, 0xa0, 0x36, 0xec, 0x44, 0xf5, 0x8f, 0xa1, 0x2d, 0x6c, 0x45] := Proofs.Lfvm.Keccak.abc

/-- C72_go and C72_sha3: the hypothesis is met by the value the C implementation would compute. -/
example : keccak256 [] = Spec.Keccak.keccak256 [] := C72_keccak256 []

/-- C72_keccak32: 32 zero bytes. -/
example : (List.replicate 32 (0 : Byte)).length = 32 := rfl

end Tosca
