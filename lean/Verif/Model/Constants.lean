/-! Constants of `eip7594/src/constants.rs`. -/
namespace Verif

/-- constants.rs:7 -/
abbrev BYTES_PER_FIELD_ELEMENT : Nat := 32
/-- constants.rs:17 -/
abbrev FIELD_ELEMENTS_PER_CELL : Nat := 64
/-- constants.rs:22 -/
abbrev FIELD_ELEMENTS_PER_BLOB : Nat := 4096
/-- constants.rs:25 -/
abbrev BYTES_PER_BLOB : Nat := FIELD_ELEMENTS_PER_BLOB * BYTES_PER_FIELD_ELEMENT
/-- constants.rs:28 -/
abbrev BYTES_PER_CELL : Nat := FIELD_ELEMENTS_PER_CELL * BYTES_PER_FIELD_ELEMENT
/-- constants.rs:34 -/
abbrev EXPANSION_FACTOR : Nat := 2
/-- constants.rs:37 -/
abbrev FIELD_ELEMENTS_PER_EXT_BLOB : Nat := EXPANSION_FACTOR * FIELD_ELEMENTS_PER_BLOB
/-- constants.rs:42 -/
abbrev CELLS_PER_EXT_BLOB : Nat := FIELD_ELEMENTS_PER_EXT_BLOB / FIELD_ELEMENTS_PER_CELL
/-- constants.rs:50 -/
abbrev BYTES_PER_G1_POINT : Nat := 48
/-- constants.rs:55 -/
abbrev BYTES_PER_COMMITMENT : Nat := BYTES_PER_G1_POINT
/-- constants.rs:61 -/
abbrev RECOMMENDED_PRECOMP_WIDTH : Nat := 8

end Verif
