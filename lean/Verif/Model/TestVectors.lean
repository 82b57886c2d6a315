import Verif.Model.Field
import Verif.Model.Tests
import Verif.Model.EmbeddedSetup
import Verif.Model.TestVectorsData

/-! The files in test_vectors/blob_to_kzg_commitment/kzg-mainnet, test_vectors/compute_cells_and_kzg_proofs/kzg-mainnet and
test_vectors/recover_cells_and_kzg_proofs/kzg-mainnet, each a file `data.yaml` in a directory. The strings are `0x` and lower-case hexadecimal digits; they are written here as numbers, and blobs with
much repetition are described. Reading the YAML text is not modelled (see Model/Tests.lean). -/
namespace Verif.TestVectors
open Tests

/-- the text of a byte string in the files -/
def hex (b : List UInt8) : Str := 48 :: 120 :: b.flatMap fun x : UInt8 => [Embedded.digit (x / 16), Embedded.digit (x % 16)]

/-- the byte string of 4096 equal numbers -/
def constantBlob (n : Nat) : List UInt8 := (List.replicate 4096 (natToBE 32 n)).flatten

/-- the byte string of 64 equal numbers -/
def constantCell (n : Nat) : List UInt8 := (List.replicate 64 (natToBE 32 n)).flatten

/-- the blob of blob_to_kzg_commitment_case_valid_blob_19b3f3f8c98ea31e -/
def blobA : List UInt8 := ((cellsA.take 64).map (natToBE 2048)).flatten

/-- the blob of blob_to_kzg_commitment_case_valid_blob_84d8089232bc23a8 -/
def blobB : List UInt8 := ((cellsB.take 64).map (natToBE 2048)).flatten

/-- the blob of blob_to_kzg_commitment_case_valid_blob_c40b9b515df8721b -/
def blobC : List UInt8 := ((cellsC.take 64).map (natToBE 2048)).flatten

/-- the blob of blob_to_kzg_commitment_case_valid_blob_fb324bc819407148 -/
def blobD : List UInt8 := ((cellsD.take 64).map (natToBE 2048)).flatten

/-- blob_to_kzg_commitment_case_invalid_blob_59d64ff6b4648fad: 131073 bytes -/
def blobLong : List UInt8 := blobD ++ [0]

/-- blob_to_kzg_commitment_case_invalid_blob_635fb2de5b0dc429: 131071 bytes -/
def blobShort : List UInt8 := blobD.take 131071

/-- blob_to_kzg_commitment_case_invalid_blob_a3b9ff28507767f8: element 2111 is the order of the field -/
def blobOrder : List UInt8 :=
  (List.replicate 2111 (natToBE 32 0)).flatten ++ natToBE 32 frOrder ++ (List.replicate 1984 (natToBE 32 0)).flatten

/-- blob_to_kzg_commitment_case_invalid_blob_d3afbd98123a3434 -/
def blobOnes : List UInt8 := List.replicate 131072 255

/-- the files of blob_to_kzg_commitment, in the order of their names -/
def blobVectors : List BlobVector := [
  /- 59d64ff6b4648fad -/ ⟨hex blobLong, none⟩,
  /- 635fb2de5b0dc429 -/ ⟨hex blobShort, none⟩,
  /- a3b9ff28507767f8 -/ ⟨hex blobOrder, none⟩,
  /- d3afbd98123a3434 -/ ⟨hex blobOnes, none⟩,
  /- 0951cfd9ab47a8d3 -/ ⟨hex (constantBlob 0), some (hex (natToBE 48
    0xc00000000000000000000000000000000000000000000000000000000000000000000000000000000000000000000000))⟩,
  /- 19b3f3f8c98ea31e -/ ⟨hex blobA, some (hex (natToBE 48
    0x93efc82d2017e9c57834a1246463e64774e56183bb247c8fc9dd98c56817e878d97b05f5c8d900acf1fbbbca6f146556))⟩,
  /- 84d8089232bc23a8 -/ ⟨hex blobB, some (hex (natToBE 48
    0x8f59a8d2a1a625a17f3fea0fe5eb8c896db3764f3185481bc22f91b4aaffcca25f26936857bc3a7c2539ea8ec3a952b7))⟩,
  /- a87a4e636e0f58fb -/ ⟨hex (constantBlob 2), some (hex (natToBE 48
    0xa572cbea904d67468808c8eb50a9450c9721db309128012543902d0ac358a62ae28f75bb8f1c7c42c39a8c5529bf0f4e))⟩,
  /- c40b9b515df8721b -/ ⟨hex blobC, some (hex (natToBE 48
    0xb49d88afcd7f6c61a8ea69eff5f609d2432b47e7e4cd50b02cdddb4e0c1460517e8df02e4e64dc55e3d8ca192d57193a))⟩,
  /- cdb3e6d49eb12307 -/ ⟨hex (constantBlob (frOrder - 1)), some (hex (natToBE 48
    0xb7f1d3a73197d7942695638c4fa9ac0fc3688c4f9774b905a14e3a3f171bac586c55e83ff97a1aeffb3af00adb22c6bb))⟩,
  /- fb324bc819407148 -/ ⟨hex blobD, some (hex (natToBE 48
    0xa421e229565952cfff4ef3517100a97da1d4fe57956fa50a442f92af03b1bf37adacc8ad4ed209b31287ea5bb94d9d06))⟩]

/-- the files of compute_cells_and_kzg_proofs whose blobs are refused or constant -/
def simpleVectors : List CellsVector := [
  /- 26555bdcbf18a267 -/ ⟨hex blobOnes, none⟩,
  /- 79fb3cb1ef585a86 -/ ⟨hex blobLong, none⟩,
  /- 7e99dea8893c104a -/ ⟨hex blobShort, none⟩,
  /- 9d88c33852eb782d -/ ⟨hex blobOrder, none⟩,
  /- 419245fbfe69f145 -/ ⟨hex (constantBlob (frOrder - 1)), some [List.replicate 128 (hex (constantCell (frOrder - 1))), List.replicate 128 (hex (natToBE 48 (3 * 2 ^ 382)))]⟩,
  /- b0731ef77b166ca8 -/ ⟨hex (constantBlob 0), some [List.replicate 128 (hex (constantCell 0)), List.replicate 128 (hex (natToBE 48 (3 * 2 ^ 382)))]⟩,
  /- edeb8500a6507818 -/ ⟨hex (constantBlob 2), some [List.replicate 128 (hex (constantCell 2)), List.replicate 128 (hex (natToBE 48 (3 * 2 ^ 382)))]⟩]

/-- the other files of compute_cells_and_kzg_proofs -/
def denseVectors : List CellsVector := [
  /- 4aedd1a2a3933c3e -/ ⟨hex blobD, some [cellsD.map fun n => hex (natToBE 2048 n), proofsD.map fun n => hex (natToBE 48 n)]⟩,
  /- 6e773f256383918c -/ ⟨hex blobA, some [cellsA.map fun n => hex (natToBE 2048 n), proofsA.map fun n => hex (natToBE 48 n)]⟩,
  /- b81d309b22788820 -/ ⟨hex blobC, some [cellsC.map fun n => hex (natToBE 2048 n), proofsC.map fun n => hex (natToBE 48 n)]⟩,
  /- ed8b5001151417d5 -/ ⟨hex blobB, some [cellsB.map fun n => hex (natToBE 2048 n), proofsB.map fun n => hex (natToBE 48 n)]⟩]

/-- a file of recover_cells_and_kzg_proofs, from byte strings -/
def recoverFile (indices : List Nat) (cells : List (List UInt8)) (output : Option (List (List UInt8) × List (List UInt8))) : RecoverVector :=
  ⟨indices, cells.map hex, output.map fun o => [o.1.map hex, o.2.map hex]⟩

def bytes (cells : List Nat) : List (List UInt8) := cells.map (natToBE 2048)

/-- a cell of zeros with the order of the field as element 7 -/
def cellOrder : List UInt8 := (List.replicate 7 (natToBE 32 0)).flatten ++ natToBE 32 frOrder ++ (List.replicate 56 (natToBE 32 0)).flatten

def evens : List Nat := (List.range 64).map (2 * ·)

/-- the files of recover_cells_and_kzg_proofs that expect an error, with their cells as byte strings -/
def recoverRefused : List (List Nat × List (List UInt8)) := [
  /- all_cells_are_missing_f46bf2cbb0332097 -/ ([], []),
  /- cell_047ee7b20a4859f2 -/ (List.range 64, (bytes (cellsD.take 1)).map (List.take 2047) ++ bytes ((cellsA.take 64).drop 1)),
  /- cell_76ab46b34c5fb2c1 -/ (List.range 64, List.replicate 2048 255 :: bytes ((cellsA.take 64).drop 1)),
  /- cell_77b66913762fcc59 -/ (List.range 64, cellOrder :: bytes ((cellsA.take 64).drop 1)),
  /- cell_c8e2ca8d3d21c1ba -/ (List.range 64, (bytes (cellsC.take 1)).map (· ++ [0]) ++ bytes ((cellsA.take 64).drop 1)),
  /- cell_index_afe751855f803463 -/ (128 :: (List.range 64).drop 1, bytes (cellsA.take 64)),
  /- duplicate_cell_index_fe590dd7c23dbbc6 -/ (1 :: (List.range 65).drop 1, bytes (cellsD.take 65)),
  /- more_cell_indices_than_cells_13abcc143fa89ea4 -/ (evens ++ [127], List.replicate 64 (constantCell 0)),
  /- more_cells_than_cell_indices_4d45354a0c80afb6 -/ (evens, List.replicate 64 (constantCell 2) ++ bytes (cellsD.take 1)),
  /- more_cells_than_cells_per_ext_blob_2a2d4606162737a3 -/ (List.range 128 ++ [0], List.replicate 129 (constantCell (frOrder - 1))),
  /- more_than_half_missing_ccf4be201af7c88d -/ (List.range 63, bytes (cellsB.take 63))]

/-- the encoding of infinity, 128 times -/
def infinities : List (List UInt8) := List.replicate 128 (natToBE 48 (3 * 2 ^ 382))

/-- the files of recover_cells_and_kzg_proofs with cells of a constant blob: indices, cells, expected cells and proofs -/
def recoverConstant : List (List Nat × List (List UInt8) × List (List UInt8) × List (List UInt8)) := [
  /- half_missing_every_other_cell_0d06acb410563a7d -/
  (evens, List.replicate 64 (constantCell 2), List.replicate 128 (constantCell 2), infinities),
  /- no_missing_a18143c4a26854c8 -/
  (List.range 128, List.replicate 128 (constantCell 0), List.replicate 128 (constantCell 0), infinities)]

/-- the other files of recover_cells_and_kzg_proofs that expect cells and proofs -/
def recoverDense : List (List Nat × List (List UInt8) × List (List UInt8) × List (List UInt8)) := [
  /- half_missing_first_half_4b14c49fe3a4d8fa -/
  (List.range 64, bytes (cellsD.take 64), bytes cellsD, proofsD.map (natToBE 48)),
  /- half_missing_second_half_dc1250b6f5996f1c -/
  ((List.range 128).drop 64, bytes (cellsC.drop 64), bytes cellsC, proofsC.map (natToBE 48))]

/-- the files of recover_cells_and_kzg_proofs that expect an error or have cells of a constant blob -/
def recoverSimple : List RecoverVector :=
  (recoverRefused.map fun v => recoverFile v.1 v.2 none) ++
    recoverConstant.map fun v => recoverFile v.1 v.2.1 (some (v.2.2.1, v.2.2.2))

/-- the arguments of a file of verify_cell_kzg_proof_batch, as byte strings -/
structure VerifyInput where
  commitments : List (List UInt8)
  indices : List Nat
  cells : List (List UInt8)
  proofs : List (List UInt8)

def verifyFile (v : VerifyInput) (output : Option Bool) : VerifyVector :=
  ⟨v.commitments.map hex, v.indices, v.cells.map hex, v.proofs.map hex, output⟩

/-- compressed points of the files: infinity, the generator, its double and its opposite, a coordinate that no point of the curve has,
and a point outside the subgroup -/
def infinity : List UInt8 := natToBE 48 (3 * 2 ^ 382)
def generatorBytes : List UInt8 := natToBE 48
  0x97f1d3a73197d7942695638c4fa9ac0fc3688c4f9774b905a14e3a3f171bac586c55e83ff97a1aeffb3af00adb22c6bb
def doubleBytes : List UInt8 := natToBE 48
  0xa572cbea904d67468808c8eb50a9450c9721db309128012543902d0ac358a62ae28f75bb8f1c7c42c39a8c5529bf0f4e
def oppositeBytes : List UInt8 := natToBE 48
  0xb7f1d3a73197d7942695638c4fa9ac0fc3688c4f9774b905a14e3a3f171bac586c55e83ff97a1aeffb3af00adb22c6bb
def offCurve : List UInt8 := natToBE 48
  0x8123456789abcdef0123456789abcdef0123456789abcdef0123456789abcdef0123456789abcdef0123456789abcde0
def offSubgroup : List UInt8 := natToBE 48
  0x8123456789abcdef0123456789abcdef0123456789abcdef0123456789abcdef0123456789abcdef0123456789abcdef

/-- the commitments of blobs B, C and D -/
def commitmentBytesB : List UInt8 := natToBE 48
  0x8f59a8d2a1a625a17f3fea0fe5eb8c896db3764f3185481bc22f91b4aaffcca25f26936857bc3a7c2539ea8ec3a952b7
def commitmentBytesC : List UInt8 := natToBE 48
  0xb49d88afcd7f6c61a8ea69eff5f609d2432b47e7e4cd50b02cdddb4e0c1460517e8df02e4e64dc55e3d8ca192d57193a
def commitmentBytesD : List UInt8 := natToBE 48
  0xa421e229565952cfff4ef3517100a97da1d4fe57956fa50a442f92af03b1bf37adacc8ad4ed209b31287ea5bb94d9d06

def proofBytes (proofs : List Nat) : List (List UInt8) := proofs.map (natToBE 48)

/-- the files of verify_cell_kzg_proof_batch that expect an error -/
def verifyRefused : List VerifyInput := [
  /- invalid_cell_bcb1b35cd777e741 -/ ⟨[doubleBytes], [0], [cellOrder], [infinity]⟩,
  /- invalid_cell_d89304ce30da426f -/ ⟨[infinity], [0], [List.replicate 2048 255], [infinity]⟩,
  /- invalid_cell_d939faf682a66dbb -/
  ⟨[commitmentBytesD], [0], (bytes (cellsD.take 1)).map (List.take 2047), proofBytes (proofsD.take 1)⟩,
  /- invalid_cell_ef6ac828b666e9a8 -/
  ⟨[commitmentBytesC], [0], (bytes (cellsC.take 1)).map (· ++ [0]), proofBytes (proofsC.take 1)⟩,
  /- invalid_cell_index_5d42cb172bfbed97 -/ ⟨[doubleBytes], [128], [constantCell 2], [infinity]⟩,
  /- invalid_commitment_4bc6fd9712cd2e52 -/ ⟨[generatorBytes ++ [0]], [0], [constantCell 2], [infinity]⟩,
  /- invalid_commitment_537d4c8a48d472f0 -/ ⟨[generatorBytes.take 47], [0], [constantCell 0], [infinity]⟩,
  /- invalid_commitment_68ebd07a83b28732 -/ ⟨[offCurve], [0], bytes (cellsC.take 1), proofBytes (proofsC.take 1)⟩,
  /- invalid_commitment_d35a01ff3deb7daa -/ ⟨[offSubgroup], [0], bytes (cellsD.take 1), proofBytes (proofsD.take 1)⟩,
  /- invalid_missing_cell_d32c32c92686f065 -/
  ⟨[commitmentBytesC, commitmentBytesC], [0, 1], bytes (cellsC.take 1), proofBytes (proofsC.take 2)⟩,
  /- invalid_missing_cell_index_2650a9b858a07c4d -/
  ⟨[commitmentBytesD, commitmentBytesD], [0], bytes (cellsD.take 2), proofBytes (proofsD.take 2)⟩,
  /- invalid_missing_commitment_7c614bb4b79d8af2 -/ ⟨[infinity], [0, 1], [constantCell 0, constantCell 0], [infinity, infinity]⟩,
  /- invalid_missing_proof_004ba5f81729ed7a -/
  ⟨[commitmentBytesB, commitmentBytesB], [0, 1], bytes (cellsB.take 2), proofBytes (proofsB.take 1)⟩,
  /- invalid_proof_04248582e1a635a3 -/ ⟨[commitmentBytesC], [0], bytes (cellsC.take 1), [offCurve]⟩,
  /- invalid_proof_48fa9d125d7a35b5 -/ ⟨[commitmentBytesD], [0], bytes (cellsD.take 1), [offSubgroup]⟩,
  /- invalid_proof_8feaf472b6f58a88 -/ ⟨[infinity], [0], [constantCell 0], [generatorBytes.take 47]⟩,
  /- invalid_proof_a9d14f09c0a175c5 -/ ⟨[doubleBytes], [0], [constantCell 2], [generatorBytes ++ [0]]⟩]

/-- the files of verify_cell_kzg_proof_batch with cells of constant blobs that expect acceptance -/
def verifyTrue : List VerifyInput := [
  /- valid_3073caf43016db4f -/ ⟨List.replicate 128 infinity, List.range 128, List.replicate 128 (constantCell 0), infinities⟩,
  /- valid_9fb9bff6fe1fb6b0 -/
  ⟨List.replicate 128 oppositeBytes, List.range 128, List.replicate 128 (constantCell (frOrder - 1)), infinities⟩,
  /- valid_fd341ee5517e590f -/ ⟨List.replicate 128 doubleBytes, List.range 128, List.replicate 128 (constantCell 2), infinities⟩,
  /- valid_multiple_blobs_9a17d94b4a0da274 -/
  ⟨[infinity, doubleBytes], [0, 0], [constantCell 0, constantCell 2], [infinity, infinity]⟩,
  /- valid_zero_cells_fbbd145730e68346 -/ ⟨[], [], [], []⟩]

/-- the files of verify_cell_kzg_proof_batch with cells of constant blobs that expect an invalid proof -/
def verifyFalse : List VerifyInput := [
  /- incorrect_commitment_659a51e9e8c9643a -/ ⟨[infinity], [0], [constantCell (frOrder - 1)], [infinity]⟩,
  /- incorrect_proof_ba29feeee48d58ec -/ ⟨[infinity], [0], [constantCell 0], [generatorBytes]⟩]

/-- The files of verify_cell_kzg_proof_batch except incorrect_cell_48bcbf9c0aafbbf3, valid_same_cell_multiple_times_e08731c0853b0a0b and the
four files with all cells of blobs A, B, C and D, whose proofs are not computed here. -/
def verifyVectors : List VerifyVector :=
  (verifyRefused.map (verifyFile · none)) ++ (verifyTrue.map (verifyFile · (some true))) ++ verifyFalse.map (verifyFile · (some false))

end Verif.TestVectors
