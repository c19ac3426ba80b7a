import Verif.Model.Machine
/-
Tests, not proofs: the error cases of the repository's own tests (tests/structures_tests,
tests/settings_tests, tests/strip_pack_tests, tests/test_potential_points_strategy.py) evaluated on the
model, generated from the tests' parameter lists.  The properties do not depend on this file.
-/
namespace HP.ConformanceErrors

/-- plotly and kaleido are installed; "LIB" is a directory and "LICENSE" a file -/
def env : Env := ⟨some ["5", "24", "1"], some ["0", "2", "1"], fun p => p == "LIB" || p == "LICENSE", fun p => p == "LIB"⟩

/-- the fixture `test_data` (tests/conftest.py) -/
def conts : PyVal := .dict [(.str "cont_id", .dict [(.str "W", .int 100), (.str "L", .int 100)])]
def items : PyVal := .dict [(.str "test_id", .dict [(.str "w", .int 10), (.str "l", .int 10)])]

/-- the exception of a constructor call -/
def errNew : Except PyErr Inst → Option PyErr
  | .ok _ => none
  | .error e => some e

/-- the object, for constructor calls that succeed -/
def get (r : Except PyErr Inst) : Inst :=
  match r with
  | .ok i => i
  | .error _ => rawInst false [] [] none .none

/-- `HyperPack(**test_data)` -/
def prob : Inst := get (mkInst env conts items .none .none)
/-- `HyperPack(items=test_data["items"], strip_pack_width=100)` -/
def strip100 : Inst := get (mkInst env .none items .none (.int 100))

example : errNew (mkInst env conts items .none .none) = none := by decide +kernel
example : errNew (mkInst env .none items .none (.int 100)) = none := by decide +kernel

-- structures_tests/test_items.py, test_items_validation_assignment
example : errNew (mkInst env conts (.dict []) .none .none) = some (.itemsError "MISSING") := by decide +kernel
example : (step Arith.exact prob (.assign .items (.dict []))).2 = .raised (.itemsError "MISSING") := by decide +kernel
example : errNew (mkInst env conts (.none) .none .none) = some (.itemsError "TYPE") := by decide +kernel
example : (step Arith.exact prob (.assign .items (.none))).2 = .raised (.itemsError "TYPE") := by decide +kernel
example : errNew (mkInst env conts (.str "f") .none .none) = some (.itemsError "TYPE") := by decide +kernel
example : (step Arith.exact prob (.assign .items (.str "f"))).2 = .raised (.itemsError "TYPE") := by decide +kernel
example : errNew (mkInst env conts (.list []) .none .none) = some (.itemsError "TYPE") := by decide +kernel
example : (step Arith.exact prob (.assign .items (.list []))).2 = .raised (.itemsError "TYPE") := by decide +kernel
example : errNew (mkInst env conts (.int 1) .none .none) = some (.itemsError "TYPE") := by decide +kernel
example : (step Arith.exact prob (.assign .items (.int 1))).2 = .raised (.itemsError "TYPE") := by decide +kernel
example : errNew (mkInst env conts (.float (6 / 5)) .none .none) = some (.itemsError "TYPE") := by decide +kernel
example : (step Arith.exact prob (.assign .items (.float (6 / 5)))).2 = .raised (.itemsError "TYPE") := by decide +kernel
example : errNew (mkInst env conts (.dict [(.int 0, .dict [(.str "w", .int 10), (.str "l", .int 10)])]) .none .none) = some (.itemsError "ID_TYPE") := by decide +kernel
example : (step Arith.exact prob (.assign .items (.dict [(.int 0, .dict [(.str "w", .int 10), (.str "l", .int 10)])]))).2 = .raised (.itemsError "ID_TYPE") := by decide +kernel
example : errNew (mkInst env conts (.dict [(.str "item_id", .dict [])]) .none .none) = some (.dimensionsError "DIMENSIONS_MISSING") := by decide +kernel
example : (step Arith.exact prob (.assign .items (.dict [(.str "item_id", .dict [])]))).2 = .raised (.dimensionsError "DIMENSIONS_MISSING") := by decide +kernel
example : errNew (mkInst env conts (.dict [(.str "item_id", .none)]) .none .none) = some (.dimensionsError "DIMENSIONS_TYPE") := by decide +kernel
example : (step Arith.exact prob (.assign .items (.dict [(.str "item_id", .none)]))).2 = .raised (.dimensionsError "DIMENSIONS_TYPE") := by decide +kernel
example : errNew (mkInst env conts (.dict [(.str "item_id", .int 0)]) .none .none) = some (.dimensionsError "DIMENSIONS_TYPE") := by decide +kernel
example : (step Arith.exact prob (.assign .items (.dict [(.str "item_id", .int 0)]))).2 = .raised (.dimensionsError "DIMENSIONS_TYPE") := by decide +kernel
example : errNew (mkInst env conts (.dict [(.str "item_id", .str "0")]) .none .none) = some (.dimensionsError "DIMENSIONS_TYPE") := by decide +kernel
example : (step Arith.exact prob (.assign .items (.dict [(.str "item_id", .str "0")]))).2 = .raised (.dimensionsError "DIMENSIONS_TYPE") := by decide +kernel
example : errNew (mkInst env conts (.dict [(.str "item_id", .float (0 / 1))]) .none .none) = some (.dimensionsError "DIMENSIONS_TYPE") := by decide +kernel
example : (step Arith.exact prob (.assign .items (.dict [(.str "item_id", .float (0 / 1))]))).2 = .raised (.dimensionsError "DIMENSIONS_TYPE") := by decide +kernel
example : errNew (mkInst env conts (.dict [(.str "item_id", .dict [(.str "w", .int 10)])]) .none .none) = some (.dimensionsError "DIMENSIONS_KEYS") := by decide +kernel
example : (step Arith.exact prob (.assign .items (.dict [(.str "item_id", .dict [(.str "w", .int 10)])]))).2 = .raised (.dimensionsError "DIMENSIONS_KEYS") := by decide +kernel
example : errNew (mkInst env conts (.dict [(.str "item_id", .dict [(.str "l", .int 10)])]) .none .none) = some (.dimensionsError "DIMENSIONS_KEYS") := by decide +kernel
example : (step Arith.exact prob (.assign .items (.dict [(.str "item_id", .dict [(.str "l", .int 10)])]))).2 = .raised (.dimensionsError "DIMENSIONS_KEYS") := by decide +kernel
example : errNew (mkInst env conts (.dict [(.str "item_id", .dict [(.str "w", .str "10"), (.str "l", .int 10)])]) .none .none) = some (.dimensionsError "DIMENSION_VALUE") := by decide +kernel
example : (step Arith.exact prob (.assign .items (.dict [(.str "item_id", .dict [(.str "w", .str "10"), (.str "l", .int 10)])]))).2 = .raised (.dimensionsError "DIMENSION_VALUE") := by decide +kernel
example : errNew (mkInst env conts (.dict [(.str "item_id", .dict [(.str "w", .int 10), (.str "l", .str "10")])]) .none .none) = some (.dimensionsError "DIMENSION_VALUE") := by decide +kernel
example : (step Arith.exact prob (.assign .items (.dict [(.str "item_id", .dict [(.str "w", .int 10), (.str "l", .str "10")])]))).2 = .raised (.dimensionsError "DIMENSION_VALUE") := by decide +kernel
example : errNew (mkInst env conts (.dict [(.str "item_id", .dict [(.str "w", .int 0), (.str "l", .int 10)])]) .none .none) = some (.dimensionsError "DIMENSION_VALUE") := by decide +kernel
example : (step Arith.exact prob (.assign .items (.dict [(.str "item_id", .dict [(.str "w", .int 0), (.str "l", .int 10)])]))).2 = .raised (.dimensionsError "DIMENSION_VALUE") := by decide +kernel
example : errNew (mkInst env conts (.dict [(.str "item_id", .dict [(.str "w", .float (101 / 10)), (.str "l", .int 0)])]) .none .none) = some (.dimensionsError "DIMENSION_VALUE") := by decide +kernel
example : (step Arith.exact prob (.assign .items (.dict [(.str "item_id", .dict [(.str "w", .float (101 / 10)), (.str "l", .int 0)])]))).2 = .raised (.dimensionsError "DIMENSION_VALUE") := by decide +kernel
example : errNew (mkInst env conts (.dict [(.str "item_id", .dict [(.str "w", .int 10), (.str "l", .float (11 / 10))])]) .none .none) = some (.dimensionsError "DIMENSION_VALUE") := by decide +kernel
example : (step Arith.exact prob (.assign .items (.dict [(.str "item_id", .dict [(.str "w", .int 10), (.str "l", .float (11 / 10))])]))).2 = .raised (.dimensionsError "DIMENSION_VALUE") := by decide +kernel
example : errNew (mkInst env conts (.dict [(.str "item_id", .dict [(.str "w", .int 10), (.str "l", .int 0)])]) .none .none) = some (.dimensionsError "DIMENSION_VALUE") := by decide +kernel
example : (step Arith.exact prob (.assign .items (.dict [(.str "item_id", .dict [(.str "w", .int 10), (.str "l", .int 0)])]))).2 = .raised (.dimensionsError "DIMENSION_VALUE") := by decide +kernel

-- structures_tests/test_items.py, test_items_setitem
example : (step Arith.exact prob (.setKey .items (.int 0) (.dict [(.str "w", .int 100), (.str "l", .int (-100))]))).2 = .raised (.itemsError "ID_TYPE") := by decide +kernel
example : (step Arith.exact prob (.update .items [(.int 0, .dict [(.str "w", .int 100), (.str "l", .int (-100))])])).2 = .raised (.itemsError "ID_TYPE") := by decide +kernel
example : (step Arith.exact prob (.setKey .items (.none) (.dict [(.str "w", .int 100), (.str "L", .int (-100))]))).2 = .raised (.itemsError "ID_TYPE") := by decide +kernel
example : (step Arith.exact prob (.update .items [(.none, .dict [(.str "w", .int 100), (.str "L", .int (-100))])])).2 = .raised (.itemsError "ID_TYPE") := by decide +kernel
example : (step Arith.exact prob (.setKey .items (.list [.int 1]) (.dict [(.str "w", .int 100), (.str "l", .int 100)]))).2 = .raised (.itemsError "ID_TYPE") := by decide +kernel
example : (step Arith.exact prob (.setKey .items (.str "item_id") (.dict [(.str "l", .int 100), (.str "w", .int 100), (.str "f", .int 1)]))).2 = .raised (.dimensionsError "DIMENSIONS_KEYS") := by decide +kernel
example : (step Arith.exact prob (.update .items [(.str "item_id", .dict [(.str "l", .int 100), (.str "w", .int 100), (.str "f", .int 1)])])).2 = .raised (.dimensionsError "DIMENSIONS_KEYS") := by decide +kernel
example : (step Arith.exact prob (.setKey .items (.str "item_id") (.dict [(.str "w", .int 100)]))).2 = .raised (.dimensionsError "DIMENSIONS_KEYS") := by decide +kernel
example : (step Arith.exact prob (.update .items [(.str "item_id", .dict [(.str "w", .int 100)])])).2 = .raised (.dimensionsError "DIMENSIONS_KEYS") := by decide +kernel
example : (step Arith.exact prob (.setKey .items (.str "item_id") (.dict [(.str "w", .int 100), (.str "L", .int 100)]))).2 = .raised (.dimensionsError "DIMENSIONS_KEYS") := by decide +kernel
example : (step Arith.exact prob (.update .items [(.str "item_id", .dict [(.str "w", .int 100), (.str "L", .int 100)])])).2 = .raised (.dimensionsError "DIMENSIONS_KEYS") := by decide +kernel
example : (step Arith.exact prob (.setKey .items (.str "item_id") (.dict [(.str "l", .int 100), (.str "W", .int 100)]))).2 = .raised (.dimensionsError "DIMENSIONS_KEYS") := by decide +kernel
example : (step Arith.exact prob (.update .items [(.str "item_id", .dict [(.str "l", .int 100), (.str "W", .int 100)])])).2 = .raised (.dimensionsError "DIMENSIONS_KEYS") := by decide +kernel
example : (step Arith.exact prob (.setKey .items (.str "item_id") (.dict [(.str "w", .int 100), (.str "l", .int (-100))]))).2 = .raised (.dimensionsError "DIMENSION_VALUE") := by decide +kernel
example : (step Arith.exact prob (.update .items [(.str "item_id", .dict [(.str "w", .int 100), (.str "l", .int (-100))])])).2 = .raised (.dimensionsError "DIMENSION_VALUE") := by decide +kernel
example : (step Arith.exact prob (.setKey .items (.str "item_id") (.dict [(.str "w", .none), (.str "l", .int 100)]))).2 = .raised (.dimensionsError "DIMENSION_VALUE") := by decide +kernel
example : (step Arith.exact prob (.update .items [(.str "item_id", .dict [(.str "w", .none), (.str "l", .int 100)])])).2 = .raised (.dimensionsError "DIMENSION_VALUE") := by decide +kernel
example : (step Arith.exact prob (.setKey .items (.str "item_id") (.dict [(.str "w", .int 100), (.str "l", .none)]))).2 = .raised (.dimensionsError "DIMENSION_VALUE") := by decide +kernel
example : (step Arith.exact prob (.update .items [(.str "item_id", .dict [(.str "w", .int 100), (.str "l", .none)])])).2 = .raised (.dimensionsError "DIMENSION_VALUE") := by decide +kernel
example : (step Arith.exact prob (.setKey .items (.str "item_id") (.dict [(.str "w", .str "100"), (.str "l", .int 100)]))).2 = .raised (.dimensionsError "DIMENSION_VALUE") := by decide +kernel
example : (step Arith.exact prob (.update .items [(.str "item_id", .dict [(.str "w", .str "100"), (.str "l", .int 100)])])).2 = .raised (.dimensionsError "DIMENSION_VALUE") := by decide +kernel
example : (step Arith.exact prob (.setKey .items (.str "item_id") (.dict [(.str "w", .int 100), (.str "l", .str "100")]))).2 = .raised (.dimensionsError "DIMENSION_VALUE") := by decide +kernel
example : (step Arith.exact prob (.update .items [(.str "item_id", .dict [(.str "w", .int 100), (.str "l", .str "100")])])).2 = .raised (.dimensionsError "DIMENSION_VALUE") := by decide +kernel
example : (step Arith.exact prob (.setKey .items (.str "item_id") (.dict [(.str "w", .float (1001 / 10)), (.str "l", .int 100)]))).2 = .raised (.dimensionsError "DIMENSION_VALUE") := by decide +kernel
example : (step Arith.exact prob (.update .items [(.str "item_id", .dict [(.str "w", .float (1001 / 10)), (.str "l", .int 100)])])).2 = .raised (.dimensionsError "DIMENSION_VALUE") := by decide +kernel
example : (step Arith.exact prob (.setKey .items (.str "item_id") (.dict [(.str "w", .int 100), (.str "l", .float (1001 / 10))]))).2 = .raised (.dimensionsError "DIMENSION_VALUE") := by decide +kernel
example : (step Arith.exact prob (.update .items [(.str "item_id", .dict [(.str "w", .int 100), (.str "l", .float (1001 / 10))])])).2 = .raised (.dimensionsError "DIMENSION_VALUE") := by decide +kernel
example : (step Arith.exact prob (.setKey .items (.str "item_id") (.dict [(.str "w", .int 100), (.str "l", .int (-100))]))).2 = .raised (.dimensionsError "DIMENSION_VALUE") := by decide +kernel
example : (step Arith.exact prob (.update .items [(.str "item_id", .dict [(.str "w", .int 100), (.str "l", .int (-100))])])).2 = .raised (.dimensionsError "DIMENSION_VALUE") := by decide +kernel
example : (step Arith.exact prob (.setKey .items (.str "item_id") (.dict [(.str "w", .int (-100)), (.str "l", .int 100)]))).2 = .raised (.dimensionsError "DIMENSION_VALUE") := by decide +kernel
example : (step Arith.exact prob (.update .items [(.str "item_id", .dict [(.str "w", .int (-100)), (.str "l", .int 100)])])).2 = .raised (.dimensionsError "DIMENSION_VALUE") := by decide +kernel
example : (step Arith.exact prob (.setDim .items (.str "test_id") (.str "w") (.float (11 / 10)))).2 = .raised (.dimensionsError "DIMENSION_VALUE") := by decide +kernel
example : (step Arith.exact prob (.updateDim .items (.str "test_id") [(.str "w", .float (11 / 10))])).2 = .raised (.dimensionsError "DIMENSION_VALUE") := by decide +kernel
example : (step Arith.exact prob (.setDim .items (.str "test_id") (.str "w") (.int (-1)))).2 = .raised (.dimensionsError "DIMENSION_VALUE") := by decide +kernel
example : (step Arith.exact prob (.updateDim .items (.str "test_id") [(.str "w", .int (-1))])).2 = .raised (.dimensionsError "DIMENSION_VALUE") := by decide +kernel
example : (step Arith.exact prob (.setDim .items (.str "test_id") (.str "w") (.none))).2 = .raised (.dimensionsError "DIMENSION_VALUE") := by decide +kernel
example : (step Arith.exact prob (.updateDim .items (.str "test_id") [(.str "w", .none)])).2 = .raised (.dimensionsError "DIMENSION_VALUE") := by decide +kernel
example : (step Arith.exact prob (.setDim .items (.str "test_id") (.str "w") (.list [.int (-1)]))).2 = .raised (.dimensionsError "DIMENSION_VALUE") := by decide +kernel
example : (step Arith.exact prob (.updateDim .items (.str "test_id") [(.str "w", .list [.int (-1)])])).2 = .raised (.dimensionsError "DIMENSION_VALUE") := by decide +kernel
example : (step Arith.exact prob (.setDim .items (.str "test_id") (.str "w") (.dict [(.str "a", .int (-1))]))).2 = .raised (.dimensionsError "DIMENSION_VALUE") := by decide +kernel
example : (step Arith.exact prob (.updateDim .items (.str "test_id") [(.str "w", .dict [(.str "a", .int (-1))])])).2 = .raised (.dimensionsError "DIMENSION_VALUE") := by decide +kernel
example : (step Arith.exact prob (.setDim .items (.str "test_id") (.str "w") (.other 0))).2 = .raised (.dimensionsError "DIMENSION_VALUE") := by decide +kernel
example : (step Arith.exact prob (.updateDim .items (.str "test_id") [(.str "w", .other 0)])).2 = .raised (.dimensionsError "DIMENSION_VALUE") := by decide +kernel
example : (step Arith.exact prob (.setDim .items (.str "test_id") (.str "l") (.float (11 / 10)))).2 = .raised (.dimensionsError "DIMENSION_VALUE") := by decide +kernel
example : (step Arith.exact prob (.updateDim .items (.str "test_id") [(.str "l", .float (11 / 10))])).2 = .raised (.dimensionsError "DIMENSION_VALUE") := by decide +kernel
example : (step Arith.exact prob (.setDim .items (.str "test_id") (.str "l") (.int (-1)))).2 = .raised (.dimensionsError "DIMENSION_VALUE") := by decide +kernel
example : (step Arith.exact prob (.updateDim .items (.str "test_id") [(.str "l", .int (-1))])).2 = .raised (.dimensionsError "DIMENSION_VALUE") := by decide +kernel
example : (step Arith.exact prob (.setDim .items (.str "test_id") (.str "l") (.none))).2 = .raised (.dimensionsError "DIMENSION_VALUE") := by decide +kernel
example : (step Arith.exact prob (.updateDim .items (.str "test_id") [(.str "l", .none)])).2 = .raised (.dimensionsError "DIMENSION_VALUE") := by decide +kernel
example : (step Arith.exact prob (.setDim .items (.str "test_id") (.str "l") (.list [.int (-1)]))).2 = .raised (.dimensionsError "DIMENSION_VALUE") := by decide +kernel
example : (step Arith.exact prob (.updateDim .items (.str "test_id") [(.str "l", .list [.int (-1)])])).2 = .raised (.dimensionsError "DIMENSION_VALUE") := by decide +kernel
example : (step Arith.exact prob (.setDim .items (.str "test_id") (.str "l") (.dict [(.str "a", .int (-1))]))).2 = .raised (.dimensionsError "DIMENSION_VALUE") := by decide +kernel
example : (step Arith.exact prob (.updateDim .items (.str "test_id") [(.str "l", .dict [(.str "a", .int (-1))])])).2 = .raised (.dimensionsError "DIMENSION_VALUE") := by decide +kernel
example : (step Arith.exact prob (.setDim .items (.str "test_id") (.str "l") (.other 0))).2 = .raised (.dimensionsError "DIMENSION_VALUE") := by decide +kernel
example : (step Arith.exact prob (.updateDim .items (.str "test_id") [(.str "l", .other 0)])).2 = .raised (.dimensionsError "DIMENSION_VALUE") := by decide +kernel
example : (step Arith.exact prob (.setDim .items (.str "test_id") (.str "L") (.int 2))).2 = .raised (.dimensionsError "DIMENSIONS_KEYS") := by decide +kernel
example : (step Arith.exact prob (.updateDim .items (.str "test_id") [(.str "L", .int 2)])).2 = .raised (.dimensionsError "DIMENSIONS_KEYS") := by decide +kernel

-- structures_tests/test_containers.py, test_containers_validation_assignment
example : errNew (mkInst env (.dict []) items .none .none) = some (.containersError "MISSING") := by decide +kernel
example : (step Arith.exact prob (.assign .containers (.dict []))).2 = .raised (.containersError "MISSING") := by decide +kernel
example : errNew (mkInst env (.none) items .none .none) = some (.containersError "TYPE") := by decide +kernel
example : (step Arith.exact prob (.assign .containers (.none))).2 = .raised (.containersError "TYPE") := by decide +kernel
example : errNew (mkInst env (.list []) items .none .none) = some (.containersError "TYPE") := by decide +kernel
example : (step Arith.exact prob (.assign .containers (.list []))).2 = .raised (.containersError "TYPE") := by decide +kernel
example : errNew (mkInst env (.str "[]") items .none .none) = some (.containersError "TYPE") := by decide +kernel
example : (step Arith.exact prob (.assign .containers (.str "[]"))).2 = .raised (.containersError "TYPE") := by decide +kernel
example : errNew (mkInst env (.int 1) items .none .none) = some (.containersError "TYPE") := by decide +kernel
example : (step Arith.exact prob (.assign .containers (.int 1))).2 = .raised (.containersError "TYPE") := by decide +kernel
example : errNew (mkInst env (.float (6 / 5)) items .none .none) = some (.containersError "TYPE") := by decide +kernel
example : (step Arith.exact prob (.assign .containers (.float (6 / 5)))).2 = .raised (.containersError "TYPE") := by decide +kernel
example : errNew (mkInst env (.dict [(.int 0, .dict [(.str "W", .int 100), (.str "L", .int 100)])]) items .none .none) = some (.containersError "ID_TYPE") := by decide +kernel
example : (step Arith.exact prob (.assign .containers (.dict [(.int 0, .dict [(.str "W", .int 100), (.str "L", .int 100)])]))).2 = .raised (.containersError "ID_TYPE") := by decide +kernel
example : errNew (mkInst env (.dict [(.str "cont_id", .dict [(.str "L", .int 100)])]) items .none .none) = some (.dimensionsError "DIMENSIONS_KEYS") := by decide +kernel
example : (step Arith.exact prob (.assign .containers (.dict [(.str "cont_id", .dict [(.str "L", .int 100)])]))).2 = .raised (.dimensionsError "DIMENSIONS_KEYS") := by decide +kernel
example : errNew (mkInst env (.dict [(.str "cont_id", .dict [(.str "W", .int 100)])]) items .none .none) = some (.dimensionsError "DIMENSIONS_KEYS") := by decide +kernel
example : (step Arith.exact prob (.assign .containers (.dict [(.str "cont_id", .dict [(.str "W", .int 100)])]))).2 = .raised (.dimensionsError "DIMENSIONS_KEYS") := by decide +kernel
example : errNew (mkInst env (.dict [(.str "cont_id", .dict [(.str "w", .int 100), (.str "L", .int 100)])]) items .none .none) = some (.dimensionsError "DIMENSIONS_KEYS") := by decide +kernel
example : (step Arith.exact prob (.assign .containers (.dict [(.str "cont_id", .dict [(.str "w", .int 100), (.str "L", .int 100)])]))).2 = .raised (.dimensionsError "DIMENSIONS_KEYS") := by decide +kernel
example : errNew (mkInst env (.dict [(.str "cont_id", .dict [(.str "l", .int 100), (.str "W", .int 100)])]) items .none .none) = some (.dimensionsError "DIMENSIONS_KEYS") := by decide +kernel
example : (step Arith.exact prob (.assign .containers (.dict [(.str "cont_id", .dict [(.str "l", .int 100), (.str "W", .int 100)])]))).2 = .raised (.dimensionsError "DIMENSIONS_KEYS") := by decide +kernel
example : errNew (mkInst env (.dict [(.str "cont_id", .dict [(.str "W", .none), (.str "L", .int 100)])]) items .none .none) = some (.dimensionsError "DIMENSION_VALUE") := by decide +kernel
example : (step Arith.exact prob (.assign .containers (.dict [(.str "cont_id", .dict [(.str "W", .none), (.str "L", .int 100)])]))).2 = .raised (.dimensionsError "DIMENSION_VALUE") := by decide +kernel
example : errNew (mkInst env (.dict [(.str "cont_id", .dict [(.str "W", .list [.none]), (.str "L", .int 100)])]) items .none .none) = some (.dimensionsError "DIMENSION_VALUE") := by decide +kernel
example : (step Arith.exact prob (.assign .containers (.dict [(.str "cont_id", .dict [(.str "W", .list [.none]), (.str "L", .int 100)])]))).2 = .raised (.dimensionsError "DIMENSION_VALUE") := by decide +kernel
example : errNew (mkInst env (.dict [(.str "cont_id", .dict [(.str "W", .none), (.str "L", .dict [(.str "a", .int 100)])])]) items .none .none) = some (.dimensionsError "DIMENSION_VALUE") := by decide +kernel
example : (step Arith.exact prob (.assign .containers (.dict [(.str "cont_id", .dict [(.str "W", .none), (.str "L", .dict [(.str "a", .int 100)])])]))).2 = .raised (.dimensionsError "DIMENSION_VALUE") := by decide +kernel
example : errNew (mkInst env (.dict [(.str "cont_id", .dict [(.str "W", .int 100), (.str "L", .none)])]) items .none .none) = some (.dimensionsError "DIMENSION_VALUE") := by decide +kernel
example : (step Arith.exact prob (.assign .containers (.dict [(.str "cont_id", .dict [(.str "W", .int 100), (.str "L", .none)])]))).2 = .raised (.dimensionsError "DIMENSION_VALUE") := by decide +kernel
example : errNew (mkInst env (.dict [(.str "cont_id", .dict [(.str "W", .str "100"), (.str "L", .int 100)])]) items .none .none) = some (.dimensionsError "DIMENSION_VALUE") := by decide +kernel
example : (step Arith.exact prob (.assign .containers (.dict [(.str "cont_id", .dict [(.str "W", .str "100"), (.str "L", .int 100)])]))).2 = .raised (.dimensionsError "DIMENSION_VALUE") := by decide +kernel
example : errNew (mkInst env (.dict [(.str "cont_id", .dict [(.str "W", .int 100), (.str "L", .str "100")])]) items .none .none) = some (.dimensionsError "DIMENSION_VALUE") := by decide +kernel
example : (step Arith.exact prob (.assign .containers (.dict [(.str "cont_id", .dict [(.str "W", .int 100), (.str "L", .str "100")])]))).2 = .raised (.dimensionsError "DIMENSION_VALUE") := by decide +kernel
example : errNew (mkInst env (.dict [(.str "cont_id", .dict [(.str "W", .float (1001 / 10)), (.str "L", .int 100)])]) items .none .none) = some (.dimensionsError "DIMENSION_VALUE") := by decide +kernel
example : (step Arith.exact prob (.assign .containers (.dict [(.str "cont_id", .dict [(.str "W", .float (1001 / 10)), (.str "L", .int 100)])]))).2 = .raised (.dimensionsError "DIMENSION_VALUE") := by decide +kernel
example : errNew (mkInst env (.dict [(.str "cont_id", .dict [(.str "W", .int 100), (.str "L", .float (1001 / 10))])]) items .none .none) = some (.dimensionsError "DIMENSION_VALUE") := by decide +kernel
example : (step Arith.exact prob (.assign .containers (.dict [(.str "cont_id", .dict [(.str "W", .int 100), (.str "L", .float (1001 / 10))])]))).2 = .raised (.dimensionsError "DIMENSION_VALUE") := by decide +kernel
example : errNew (mkInst env (.dict [(.str "cont_id", .dict [(.str "W", .int 100), (.str "L", .int (-100))])]) items .none .none) = some (.dimensionsError "DIMENSION_VALUE") := by decide +kernel
example : (step Arith.exact prob (.assign .containers (.dict [(.str "cont_id", .dict [(.str "W", .int 100), (.str "L", .int (-100))])]))).2 = .raised (.dimensionsError "DIMENSION_VALUE") := by decide +kernel
example : errNew (mkInst env (.dict [(.str "cont_id", .dict [(.str "W", .int (-100)), (.str "L", .int 100)])]) items .none .none) = some (.dimensionsError "DIMENSION_VALUE") := by decide +kernel
example : (step Arith.exact prob (.assign .containers (.dict [(.str "cont_id", .dict [(.str "W", .int (-100)), (.str "L", .int 100)])]))).2 = .raised (.dimensionsError "DIMENSION_VALUE") := by decide +kernel

-- structures_tests/test_containers.py, test_containers_validation_setitem
example : (step Arith.exact prob (.setKey .containers (.int 0) (.dict [(.str "W", .int 100), (.str "L", .int (-100))]))).2 = .raised (.containersError "ID_TYPE") := by decide +kernel
example : (step Arith.exact prob (.update .containers [(.int 0, .dict [(.str "W", .int 100), (.str "L", .int (-100))])])).2 = .raised (.containersError "ID_TYPE") := by decide +kernel
example : (step Arith.exact prob (.setKey .containers (.none) (.dict [(.str "W", .int 100), (.str "L", .int (-100))]))).2 = .raised (.containersError "ID_TYPE") := by decide +kernel
example : (step Arith.exact prob (.update .containers [(.none, .dict [(.str "W", .int 100), (.str "L", .int (-100))])])).2 = .raised (.containersError "ID_TYPE") := by decide +kernel
example : (step Arith.exact prob (.setKey .containers (.list [.int 1]) (.dict [(.str "W", .int 100), (.str "L", .int (-100))]))).2 = .raised (.containersError "ID_TYPE") := by decide +kernel
example : (step Arith.exact prob (.setKey .containers (.str "cont_id") (.dict [(.str "L", .int 100)]))).2 = .raised (.dimensionsError "DIMENSIONS_KEYS") := by decide +kernel
example : (step Arith.exact prob (.update .containers [(.str "cont_id", .dict [(.str "L", .int 100)])])).2 = .raised (.dimensionsError "DIMENSIONS_KEYS") := by decide +kernel
example : (step Arith.exact prob (.setKey .containers (.str "cont_id") (.dict [(.str "W", .int 100)]))).2 = .raised (.dimensionsError "DIMENSIONS_KEYS") := by decide +kernel
example : (step Arith.exact prob (.update .containers [(.str "cont_id", .dict [(.str "W", .int 100)])])).2 = .raised (.dimensionsError "DIMENSIONS_KEYS") := by decide +kernel
example : (step Arith.exact prob (.setKey .containers (.str "cont_id") (.dict [(.str "w", .int 100), (.str "L", .int 100)]))).2 = .raised (.dimensionsError "DIMENSIONS_KEYS") := by decide +kernel
example : (step Arith.exact prob (.update .containers [(.str "cont_id", .dict [(.str "w", .int 100), (.str "L", .int 100)])])).2 = .raised (.dimensionsError "DIMENSIONS_KEYS") := by decide +kernel
example : (step Arith.exact prob (.setKey .containers (.str "cont_id") (.dict [(.str "l", .int 100), (.str "W", .int 100)]))).2 = .raised (.dimensionsError "DIMENSIONS_KEYS") := by decide +kernel
example : (step Arith.exact prob (.update .containers [(.str "cont_id", .dict [(.str "l", .int 100), (.str "W", .int 100)])])).2 = .raised (.dimensionsError "DIMENSIONS_KEYS") := by decide +kernel
example : (step Arith.exact prob (.setKey .containers (.str "cont_id") (.dict [(.str "W", .float (1001 / 10)), (.str "L", .int 100)]))).2 = .raised (.dimensionsError "DIMENSION_VALUE") := by decide +kernel
example : (step Arith.exact prob (.update .containers [(.str "cont_id", .dict [(.str "W", .float (1001 / 10)), (.str "L", .int 100)])])).2 = .raised (.dimensionsError "DIMENSION_VALUE") := by decide +kernel
example : (step Arith.exact prob (.setKey .containers (.str "cont_id") (.dict [(.str "W", .int 100), (.str "L", .float (1001 / 10))]))).2 = .raised (.dimensionsError "DIMENSION_VALUE") := by decide +kernel
example : (step Arith.exact prob (.update .containers [(.str "cont_id", .dict [(.str "W", .int 100), (.str "L", .float (1001 / 10))])])).2 = .raised (.dimensionsError "DIMENSION_VALUE") := by decide +kernel
example : (step Arith.exact prob (.setKey .containers (.str "cont_id") (.dict [(.str "W", .int 100), (.str "L", .int (-100))]))).2 = .raised (.dimensionsError "DIMENSION_VALUE") := by decide +kernel
example : (step Arith.exact prob (.update .containers [(.str "cont_id", .dict [(.str "W", .int 100), (.str "L", .int (-100))])])).2 = .raised (.dimensionsError "DIMENSION_VALUE") := by decide +kernel
example : (step Arith.exact prob (.setKey .containers (.str "cont_id") (.dict [(.str "W", .none), (.str "L", .int 100)]))).2 = .raised (.dimensionsError "DIMENSION_VALUE") := by decide +kernel
example : (step Arith.exact prob (.update .containers [(.str "cont_id", .dict [(.str "W", .none), (.str "L", .int 100)])])).2 = .raised (.dimensionsError "DIMENSION_VALUE") := by decide +kernel
example : (step Arith.exact prob (.setKey .containers (.str "cont_id") (.dict [(.str "W", .int 100), (.str "L", .none)]))).2 = .raised (.dimensionsError "DIMENSION_VALUE") := by decide +kernel
example : (step Arith.exact prob (.update .containers [(.str "cont_id", .dict [(.str "W", .int 100), (.str "L", .none)])])).2 = .raised (.dimensionsError "DIMENSION_VALUE") := by decide +kernel
example : (step Arith.exact prob (.setKey .containers (.str "cont_id") (.dict [(.str "W", .str "100"), (.str "L", .int 100)]))).2 = .raised (.dimensionsError "DIMENSION_VALUE") := by decide +kernel
example : (step Arith.exact prob (.update .containers [(.str "cont_id", .dict [(.str "W", .str "100"), (.str "L", .int 100)])])).2 = .raised (.dimensionsError "DIMENSION_VALUE") := by decide +kernel
example : (step Arith.exact prob (.setKey .containers (.str "cont_id") (.dict [(.str "W", .int 100), (.str "L", .str "100")]))).2 = .raised (.dimensionsError "DIMENSION_VALUE") := by decide +kernel
example : (step Arith.exact prob (.update .containers [(.str "cont_id", .dict [(.str "W", .int 100), (.str "L", .str "100")])])).2 = .raised (.dimensionsError "DIMENSION_VALUE") := by decide +kernel
example : (step Arith.exact prob (.setKey .containers (.str "cont_id") (.dict [(.str "W", .int 100), (.str "L", .int (-100))]))).2 = .raised (.dimensionsError "DIMENSION_VALUE") := by decide +kernel
example : (step Arith.exact prob (.update .containers [(.str "cont_id", .dict [(.str "W", .int 100), (.str "L", .int (-100))])])).2 = .raised (.dimensionsError "DIMENSION_VALUE") := by decide +kernel
example : (step Arith.exact prob (.setKey .containers (.str "cont_id") (.dict [(.str "W", .int (-100)), (.str "L", .int 100)]))).2 = .raised (.dimensionsError "DIMENSION_VALUE") := by decide +kernel
example : (step Arith.exact prob (.update .containers [(.str "cont_id", .dict [(.str "W", .int (-100)), (.str "L", .int 100)])])).2 = .raised (.dimensionsError "DIMENSION_VALUE") := by decide +kernel
example : (step Arith.exact prob (.setDim .containers (.str "cont_id") (.str "W") (.float (11 / 10)))).2 = .raised (.dimensionsError "DIMENSION_VALUE") := by decide +kernel
example : (step Arith.exact prob (.updateDim .containers (.str "cont_id") [(.str "W", .float (11 / 10))])).2 = .raised (.dimensionsError "DIMENSION_VALUE") := by decide +kernel
example : (step Arith.exact prob (.setDim .containers (.str "cont_id") (.str "W") (.int (-1)))).2 = .raised (.dimensionsError "DIMENSION_VALUE") := by decide +kernel
example : (step Arith.exact prob (.updateDim .containers (.str "cont_id") [(.str "W", .int (-1))])).2 = .raised (.dimensionsError "DIMENSION_VALUE") := by decide +kernel
example : (step Arith.exact prob (.setDim .containers (.str "cont_id") (.str "W") (.none))).2 = .raised (.dimensionsError "DIMENSION_VALUE") := by decide +kernel
example : (step Arith.exact prob (.updateDim .containers (.str "cont_id") [(.str "W", .none)])).2 = .raised (.dimensionsError "DIMENSION_VALUE") := by decide +kernel
example : (step Arith.exact prob (.setDim .containers (.str "cont_id") (.str "W") (.list [.int (-1)]))).2 = .raised (.dimensionsError "DIMENSION_VALUE") := by decide +kernel
example : (step Arith.exact prob (.updateDim .containers (.str "cont_id") [(.str "W", .list [.int (-1)])])).2 = .raised (.dimensionsError "DIMENSION_VALUE") := by decide +kernel
example : (step Arith.exact prob (.setDim .containers (.str "cont_id") (.str "W") (.dict [(.str "a", .int (-1))]))).2 = .raised (.dimensionsError "DIMENSION_VALUE") := by decide +kernel
example : (step Arith.exact prob (.updateDim .containers (.str "cont_id") [(.str "W", .dict [(.str "a", .int (-1))])])).2 = .raised (.dimensionsError "DIMENSION_VALUE") := by decide +kernel
example : (step Arith.exact prob (.setDim .containers (.str "cont_id") (.str "W") (.other 0))).2 = .raised (.dimensionsError "DIMENSION_VALUE") := by decide +kernel
example : (step Arith.exact prob (.updateDim .containers (.str "cont_id") [(.str "W", .other 0)])).2 = .raised (.dimensionsError "DIMENSION_VALUE") := by decide +kernel
example : (step Arith.exact prob (.setDim .containers (.str "cont_id") (.str "L") (.float (11 / 10)))).2 = .raised (.dimensionsError "DIMENSION_VALUE") := by decide +kernel
example : (step Arith.exact prob (.updateDim .containers (.str "cont_id") [(.str "L", .float (11 / 10))])).2 = .raised (.dimensionsError "DIMENSION_VALUE") := by decide +kernel
example : (step Arith.exact prob (.setDim .containers (.str "cont_id") (.str "L") (.int (-1)))).2 = .raised (.dimensionsError "DIMENSION_VALUE") := by decide +kernel
example : (step Arith.exact prob (.updateDim .containers (.str "cont_id") [(.str "L", .int (-1))])).2 = .raised (.dimensionsError "DIMENSION_VALUE") := by decide +kernel
example : (step Arith.exact prob (.setDim .containers (.str "cont_id") (.str "L") (.none))).2 = .raised (.dimensionsError "DIMENSION_VALUE") := by decide +kernel
example : (step Arith.exact prob (.updateDim .containers (.str "cont_id") [(.str "L", .none)])).2 = .raised (.dimensionsError "DIMENSION_VALUE") := by decide +kernel
example : (step Arith.exact prob (.setDim .containers (.str "cont_id") (.str "L") (.list [.int (-1)]))).2 = .raised (.dimensionsError "DIMENSION_VALUE") := by decide +kernel
example : (step Arith.exact prob (.updateDim .containers (.str "cont_id") [(.str "L", .list [.int (-1)])])).2 = .raised (.dimensionsError "DIMENSION_VALUE") := by decide +kernel
example : (step Arith.exact prob (.setDim .containers (.str "cont_id") (.str "L") (.dict [(.str "a", .int (-1))]))).2 = .raised (.dimensionsError "DIMENSION_VALUE") := by decide +kernel
example : (step Arith.exact prob (.updateDim .containers (.str "cont_id") [(.str "L", .dict [(.str "a", .int (-1))])])).2 = .raised (.dimensionsError "DIMENSION_VALUE") := by decide +kernel
example : (step Arith.exact prob (.setDim .containers (.str "cont_id") (.str "L") (.other 0))).2 = .raised (.dimensionsError "DIMENSION_VALUE") := by decide +kernel
example : (step Arith.exact prob (.updateDim .containers (.str "cont_id") [(.str "L", .other 0)])).2 = .raised (.dimensionsError "DIMENSION_VALUE") := by decide +kernel
example : (step Arith.exact prob (.setDim .containers (.str "cont_id") (.str "l") (.int 2))).2 = .raised (.dimensionsError "DIMENSIONS_KEYS") := by decide +kernel
example : (step Arith.exact prob (.updateDim .containers (.str "cont_id") [(.str "l", .int 2)])).2 = .raised (.dimensionsError "DIMENSIONS_KEYS") := by decide +kernel

-- strip_pack_tests/test_strip_pack_attrs.py, test_strip_pack_width_value_error
example : errNew (mkInst env .none items .none (.int 0)) = some (.dimensionsError "DIMENSION_VALUE") := by decide +kernel
example : errNew (mkInst env .none items .none (.float (11 / 10))) = some (.dimensionsError "DIMENSION_VALUE") := by decide +kernel
example : errNew (mkInst env .none items .none (.dict [(.str "a", .int 1)])) = some (.dimensionsError "DIMENSION_VALUE") := by decide +kernel
example : errNew (mkInst env .none items .none (.list [.int 0])) = some (.dimensionsError "DIMENSION_VALUE") := by decide +kernel
example : errNew (mkInst env .none items .none (.other 0)) = some (.dimensionsError "DIMENSION_VALUE") := by decide +kernel

-- strip_pack_tests/test_strip_pack_attrs.py, test_container_height_value_error_setter
example : (step Arith.exact { strip100 with minHeight := some 11 } (.height (.int 0))).2 = .raised (.dimensionsError "DIMENSION_VALUE") := by decide +kernel
example : (step Arith.exact { strip100 with minHeight := some 11 } (.height (.float (11 / 10)))).2 = .raised (.dimensionsError "DIMENSION_VALUE") := by decide +kernel
example : (step Arith.exact { strip100 with minHeight := some 11 } (.height (.dict [(.str "a", .int 1)]))).2 = .raised (.dimensionsError "DIMENSION_VALUE") := by decide +kernel
example : (step Arith.exact { strip100 with minHeight := some 11 } (.height (.list [.int 0]))).2 = .raised (.dimensionsError "DIMENSION_VALUE") := by decide +kernel
example : (step Arith.exact { strip100 with minHeight := some 11 } (.height (.other 0))).2 = .raised (.dimensionsError "DIMENSION_VALUE") := by decide +kernel
example : (step Arith.exact { strip100 with minHeight := some 11 } (.height (.int 10))).2 = .raised (.containersError "STRIP_PACK_MIN_HEIGHT") := by decide +kernel

-- strip_pack_tests/test_strip_pack_attrs.py, test_container_min_height_setter
example : (step Arith.exact { strip100 with height := some 11 } (.minHeight (.int 0))).2 = .raised (.dimensionsError "DIMENSION_VALUE") := by decide +kernel
example : (step Arith.exact { strip100 with height := some 11 } (.minHeight (.float (11 / 10)))).2 = .raised (.dimensionsError "DIMENSION_VALUE") := by decide +kernel
example : (step Arith.exact { strip100 with height := some 11 } (.minHeight (.dict [(.str "a", .int 1)]))).2 = .raised (.dimensionsError "DIMENSION_VALUE") := by decide +kernel
example : (step Arith.exact { strip100 with height := some 11 } (.minHeight (.list [.int 0]))).2 = .raised (.dimensionsError "DIMENSION_VALUE") := by decide +kernel
example : (step Arith.exact { strip100 with height := some 11 } (.minHeight (.other 0))).2 = .raised (.dimensionsError "DIMENSION_VALUE") := by decide +kernel
example : (step Arith.exact { strip100 with height := some 11 } (.minHeight (.int 12))).2 = .raised (.containersError "STRIP_PACK_MIN_HEIGHT") := by decide +kernel

-- test_potential_points_strategy.py, test_potential_points_setter_error
example : (step Arith.exact prob (.strategy (.str "str"))).2 = .raised (.potentialPointsError "TYPE") := by decide +kernel
example : (step Arith.exact prob (.strategy (.list [.str "str"]))).2 = .raised (.potentialPointsError "TYPE") := by decide +kernel
example : (step Arith.exact prob (.strategy (.dict [(.str "str", .int 1)]))).2 = .raised (.potentialPointsError "TYPE") := by decide +kernel
example : (step Arith.exact prob (.strategy (.none))).2 = .raised (.potentialPointsError "TYPE") := by decide +kernel
example : (step Arith.exact prob (.strategy (.tuple [.int 0, .str "A"]))).2 = .raised (.potentialPointsError "ELEMENT_TYPE") := by decide +kernel
example : (step Arith.exact prob (.strategy (.tuple [.list [.int 0], .str "A"]))).2 = .raised (.potentialPointsError "ELEMENT_TYPE") := by decide +kernel
example : (step Arith.exact prob (.strategy (.tuple [.dict [(.str "A", .int 1)], .str "A"]))).2 = .raised (.potentialPointsError "ELEMENT_TYPE") := by decide +kernel
example : (step Arith.exact prob (.strategy (.tuple [.none, .str "A"]))).2 = .raised (.potentialPointsError "ELEMENT_TYPE") := by decide +kernel
example : (step Arith.exact prob (.strategy (.tuple [.str "A", .none]))).2 = .raised (.potentialPointsError "ELEMENT_TYPE") := by decide +kernel
example : (step Arith.exact prob (.strategy (.tuple [.str "A", .list [.int 0]]))).2 = .raised (.potentialPointsError "ELEMENT_TYPE") := by decide +kernel
example : (step Arith.exact prob (.strategy (.tuple [.str "A", .dict [(.str "A", .int 1)]]))).2 = .raised (.potentialPointsError "ELEMENT_TYPE") := by decide +kernel
example : (step Arith.exact prob (.strategy (.tuple [.str "A", .none]))).2 = .raised (.potentialPointsError "ELEMENT_TYPE") := by decide +kernel
example : (step Arith.exact prob (.strategy (.tuple [.str "CC"]))).2 = .raised (.potentialPointsError "ELEMENT_NOT_POINT") := by decide +kernel
example : (step Arith.exact prob (.strategy (.tuple [.str "A", .str "CC"]))).2 = .raised (.potentialPointsError "ELEMENT_NOT_POINT") := by decide +kernel
example : (step Arith.exact prob (.strategy (.tuple [.str "A", .str "C", .str "C"]))).2 = .raised (.potentialPointsError "DUPLICATE_POINTS") := by decide +kernel

-- settings_tests/test_validation_figure.py, test_settings_figure_validation
example : errNew (mkInst env conts items (.dict [(.str "figure", .none)]) .none) = some (.settingsError "FIGURE_KEY_TYPE") := by decide +kernel
example : (step Arith.exact prob (.settings env (.dict [(.str "figure", .none)]))).2 = .raised (.settingsError "FIGURE_KEY_TYPE") := by decide +kernel
example : errNew (mkInst env conts items (.dict [(.str "figure", .str "str")]) .none) = some (.settingsError "FIGURE_KEY_TYPE") := by decide +kernel
example : (step Arith.exact prob (.settings env (.dict [(.str "figure", .str "str")]))).2 = .raised (.settingsError "FIGURE_KEY_TYPE") := by decide +kernel
example : errNew (mkInst env conts items (.dict [(.str "figure", .list [])]) .none) = some (.settingsError "FIGURE_KEY_TYPE") := by decide +kernel
example : (step Arith.exact prob (.settings env (.dict [(.str "figure", .list [])]))).2 = .raised (.settingsError "FIGURE_KEY_TYPE") := by decide +kernel
example : errNew (mkInst env conts items (.dict [(.str "figure", .int 1)]) .none) = some (.settingsError "FIGURE_KEY_TYPE") := by decide +kernel
example : (step Arith.exact prob (.settings env (.dict [(.str "figure", .int 1)]))).2 = .raised (.settingsError "FIGURE_KEY_TYPE") := by decide +kernel
example : errNew (mkInst env conts items (.dict [(.str "figure", .float (6 / 5))]) .none) = some (.settingsError "FIGURE_KEY_TYPE") := by decide +kernel
example : (step Arith.exact prob (.settings env (.dict [(.str "figure", .float (6 / 5))]))).2 = .raised (.settingsError "FIGURE_KEY_TYPE") := by decide +kernel
example : errNew (mkInst env conts items (.dict [(.str "figure", .other 0)]) .none) = some (.settingsError "FIGURE_KEY_TYPE") := by decide +kernel
example : (step Arith.exact prob (.settings env (.dict [(.str "figure", .other 0)]))).2 = .raised (.settingsError "FIGURE_KEY_TYPE") := by decide +kernel
example : errNew (mkInst env conts items (.dict [(.str "figure", .dict [(.str "export", .none)])]) .none) = some (.settingsError "FIGURE_EXPORT_VALUE_TYPE") := by decide +kernel
example : (step Arith.exact prob (.settings env (.dict [(.str "figure", .dict [(.str "export", .none)])]))).2 = .raised (.settingsError "FIGURE_EXPORT_VALUE_TYPE") := by decide +kernel
example : errNew (mkInst env conts items (.dict [(.str "figure", .dict [(.str "export", .str "str")])]) .none) = some (.settingsError "FIGURE_EXPORT_VALUE_TYPE") := by decide +kernel
example : (step Arith.exact prob (.settings env (.dict [(.str "figure", .dict [(.str "export", .str "str")])]))).2 = .raised (.settingsError "FIGURE_EXPORT_VALUE_TYPE") := by decide +kernel
example : errNew (mkInst env conts items (.dict [(.str "figure", .dict [(.str "export", .list [])])]) .none) = some (.settingsError "FIGURE_EXPORT_VALUE_TYPE") := by decide +kernel
example : (step Arith.exact prob (.settings env (.dict [(.str "figure", .dict [(.str "export", .list [])])]))).2 = .raised (.settingsError "FIGURE_EXPORT_VALUE_TYPE") := by decide +kernel
example : errNew (mkInst env conts items (.dict [(.str "figure", .dict [(.str "export", .int 1)])]) .none) = some (.settingsError "FIGURE_EXPORT_VALUE_TYPE") := by decide +kernel
example : (step Arith.exact prob (.settings env (.dict [(.str "figure", .dict [(.str "export", .int 1)])]))).2 = .raised (.settingsError "FIGURE_EXPORT_VALUE_TYPE") := by decide +kernel
example : errNew (mkInst env conts items (.dict [(.str "figure", .dict [(.str "export", .float (6 / 5))])]) .none) = some (.settingsError "FIGURE_EXPORT_VALUE_TYPE") := by decide +kernel
example : (step Arith.exact prob (.settings env (.dict [(.str "figure", .dict [(.str "export", .float (6 / 5))])]))).2 = .raised (.settingsError "FIGURE_EXPORT_VALUE_TYPE") := by decide +kernel
example : errNew (mkInst env conts items (.dict [(.str "figure", .dict [(.str "export", .other 0)])]) .none) = some (.settingsError "FIGURE_EXPORT_VALUE_TYPE") := by decide +kernel
example : (step Arith.exact prob (.settings env (.dict [(.str "figure", .dict [(.str "export", .other 0)])]))).2 = .raised (.settingsError "FIGURE_EXPORT_VALUE_TYPE") := by decide +kernel
example : errNew (mkInst env conts items (.dict [(.str "figure", .dict [(.str "export", .dict [(.str "type", .none)])])]) .none) = some (.settingsError "FIGURE_EXPORT_TYPE_MISSING") := by decide +kernel
example : (step Arith.exact prob (.settings env (.dict [(.str "figure", .dict [(.str "export", .dict [(.str "type", .none)])])]))).2 = .raised (.settingsError "FIGURE_EXPORT_TYPE_MISSING") := by decide +kernel
example : errNew (mkInst env conts items (.dict [(.str "figure", .dict [(.str "export", .dict [(.str "type", .dict [])])])]) .none) = some (.settingsError "FIGURE_EXPORT_TYPE_VALUE") := by decide +kernel
example : (step Arith.exact prob (.settings env (.dict [(.str "figure", .dict [(.str "export", .dict [(.str "type", .dict [])])])]))).2 = .raised (.settingsError "FIGURE_EXPORT_TYPE_VALUE") := by decide +kernel
example : errNew (mkInst env conts items (.dict [(.str "figure", .dict [(.str "export", .dict [(.str "type", .list [])])])]) .none) = some (.settingsError "FIGURE_EXPORT_TYPE_VALUE") := by decide +kernel
example : (step Arith.exact prob (.settings env (.dict [(.str "figure", .dict [(.str "export", .dict [(.str "type", .list [])])])]))).2 = .raised (.settingsError "FIGURE_EXPORT_TYPE_VALUE") := by decide +kernel
example : errNew (mkInst env conts items (.dict [(.str "figure", .dict [(.str "export", .dict [(.str "type", .int 1)])])]) .none) = some (.settingsError "FIGURE_EXPORT_TYPE_VALUE") := by decide +kernel
example : (step Arith.exact prob (.settings env (.dict [(.str "figure", .dict [(.str "export", .dict [(.str "type", .int 1)])])]))).2 = .raised (.settingsError "FIGURE_EXPORT_TYPE_VALUE") := by decide +kernel
example : errNew (mkInst env conts items (.dict [(.str "figure", .dict [(.str "export", .dict [(.str "type", .float (6 / 5))])])]) .none) = some (.settingsError "FIGURE_EXPORT_TYPE_VALUE") := by decide +kernel
example : (step Arith.exact prob (.settings env (.dict [(.str "figure", .dict [(.str "export", .dict [(.str "type", .float (6 / 5))])])]))).2 = .raised (.settingsError "FIGURE_EXPORT_TYPE_VALUE") := by decide +kernel
example : errNew (mkInst env conts items (.dict [(.str "figure", .dict [(.str "export", .dict [(.str "type", .other 0)])])]) .none) = some (.settingsError "FIGURE_EXPORT_TYPE_VALUE") := by decide +kernel
example : (step Arith.exact prob (.settings env (.dict [(.str "figure", .dict [(.str "export", .dict [(.str "type", .other 0)])])]))).2 = .raised (.settingsError "FIGURE_EXPORT_TYPE_VALUE") := by decide +kernel
example : errNew (mkInst env conts items (.dict [(.str "figure", .dict [(.str "export", .dict [(.str "type", .str "not_html_or_image")])])]) .none) = some (.settingsError "FIGURE_EXPORT_TYPE_VALUE") := by decide +kernel
example : (step Arith.exact prob (.settings env (.dict [(.str "figure", .dict [(.str "export", .dict [(.str "type", .str "not_html_or_image")])])]))).2 = .raised (.settingsError "FIGURE_EXPORT_TYPE_VALUE") := by decide +kernel
example : errNew (mkInst env conts items (.dict [(.str "figure", .dict [(.str "export", .dict [(.str "type", .str "html"), (.str "path", .none)])])]) .none) = some (.settingsError "FIGURE_EXPORT_PATH_MISSING") := by decide +kernel
example : (step Arith.exact prob (.settings env (.dict [(.str "figure", .dict [(.str "export", .dict [(.str "type", .str "html"), (.str "path", .none)])])]))).2 = .raised (.settingsError "FIGURE_EXPORT_PATH_MISSING") := by decide +kernel
example : errNew (mkInst env conts items (.dict [(.str "figure", .dict [(.str "export", .dict [(.str "type", .str "html"), (.str "path", .int 1)])])]) .none) = some (.settingsError "FIGURE_EXPORT_PATH_VALUE") := by decide +kernel
example : (step Arith.exact prob (.settings env (.dict [(.str "figure", .dict [(.str "export", .dict [(.str "type", .str "html"), (.str "path", .int 1)])])]))).2 = .raised (.settingsError "FIGURE_EXPORT_PATH_VALUE") := by decide +kernel
example : errNew (mkInst env conts items (.dict [(.str "figure", .dict [(.str "export", .dict [(.str "type", .str "html"), (.str "path", .float (11 / 10))])])]) .none) = some (.settingsError "FIGURE_EXPORT_PATH_VALUE") := by decide +kernel
example : (step Arith.exact prob (.settings env (.dict [(.str "figure", .dict [(.str "export", .dict [(.str "type", .str "html"), (.str "path", .float (11 / 10))])])]))).2 = .raised (.settingsError "FIGURE_EXPORT_PATH_VALUE") := by decide +kernel
example : errNew (mkInst env conts items (.dict [(.str "figure", .dict [(.str "export", .dict [(.str "type", .str "html"), (.str "path", .list [.none])])])]) .none) = some (.settingsError "FIGURE_EXPORT_PATH_VALUE") := by decide +kernel
example : (step Arith.exact prob (.settings env (.dict [(.str "figure", .dict [(.str "export", .dict [(.str "type", .str "html"), (.str "path", .list [.none])])])]))).2 = .raised (.settingsError "FIGURE_EXPORT_PATH_VALUE") := by decide +kernel
example : errNew (mkInst env conts items (.dict [(.str "figure", .dict [(.str "export", .dict [(.str "type", .str "html"), (.str "path", .dict [])])])]) .none) = some (.settingsError "FIGURE_EXPORT_PATH_VALUE") := by decide +kernel
example : (step Arith.exact prob (.settings env (.dict [(.str "figure", .dict [(.str "export", .dict [(.str "type", .str "html"), (.str "path", .dict [])])])]))).2 = .raised (.settingsError "FIGURE_EXPORT_PATH_VALUE") := by decide +kernel
example : errNew (mkInst env conts items (.dict [(.str "figure", .dict [(.str "export", .dict [(.str "type", .str "html"), (.str "path", .str "non_existing_path")])])]) .none) = some (.settingsError "FIGURE_EXPORT_PATH_NOT_EXISTS") := by decide +kernel
example : (step Arith.exact prob (.settings env (.dict [(.str "figure", .dict [(.str "export", .dict [(.str "type", .str "html"), (.str "path", .str "non_existing_path")])])]))).2 = .raised (.settingsError "FIGURE_EXPORT_PATH_NOT_EXISTS") := by decide +kernel
example : errNew (mkInst env conts items (.dict [(.str "figure", .dict [(.str "export", .dict [(.str "type", .str "html"), (.str "path", .str "LICENSE")])])]) .none) = some (.settingsError "FIGURE_EXPORT_PATH_NOT_DIRECTORY") := by decide +kernel
example : (step Arith.exact prob (.settings env (.dict [(.str "figure", .dict [(.str "export", .dict [(.str "type", .str "html"), (.str "path", .str "LICENSE")])])]))).2 = .raised (.settingsError "FIGURE_EXPORT_PATH_NOT_DIRECTORY") := by decide +kernel
example : errNew (mkInst env conts items (.dict [(.str "figure", .dict [(.str "export", .dict [(.str "type", .str "image"), (.str "path", .str "LIB")])])]) .none) = some (.settingsError "FIGURE_EXPORT_FORMAT_MISSING") := by decide +kernel
example : (step Arith.exact prob (.settings env (.dict [(.str "figure", .dict [(.str "export", .dict [(.str "type", .str "image"), (.str "path", .str "LIB")])])]))).2 = .raised (.settingsError "FIGURE_EXPORT_FORMAT_MISSING") := by decide +kernel
example : errNew (mkInst env conts items (.dict [(.str "figure", .dict [(.str "export", .dict [(.str "type", .str "image"), (.str "path", .str "LIB"), (.str "format", .none)])])]) .none) = some (.settingsError "FIGURE_EXPORT_FORMAT_MISSING") := by decide +kernel
example : (step Arith.exact prob (.settings env (.dict [(.str "figure", .dict [(.str "export", .dict [(.str "type", .str "image"), (.str "path", .str "LIB"), (.str "format", .none)])])]))).2 = .raised (.settingsError "FIGURE_EXPORT_FORMAT_MISSING") := by decide +kernel
example : errNew (mkInst env conts items (.dict [(.str "figure", .dict [(.str "export", .dict [(.str "type", .str "image"), (.str "path", .str "LIB"), (.str "format", .list [.none])])])]) .none) = some (.settingsError "FIGURE_EXPORT_FORMAT_TYPE") := by decide +kernel
example : (step Arith.exact prob (.settings env (.dict [(.str "figure", .dict [(.str "export", .dict [(.str "type", .str "image"), (.str "path", .str "LIB"), (.str "format", .list [.none])])])]))).2 = .raised (.settingsError "FIGURE_EXPORT_FORMAT_TYPE") := by decide +kernel
example : errNew (mkInst env conts items (.dict [(.str "figure", .dict [(.str "export", .dict [(.str "type", .str "image"), (.str "path", .str "LIB"), (.str "format", .int 1)])])]) .none) = some (.settingsError "FIGURE_EXPORT_FORMAT_TYPE") := by decide +kernel
example : (step Arith.exact prob (.settings env (.dict [(.str "figure", .dict [(.str "export", .dict [(.str "type", .str "image"), (.str "path", .str "LIB"), (.str "format", .int 1)])])]))).2 = .raised (.settingsError "FIGURE_EXPORT_FORMAT_TYPE") := by decide +kernel
example : errNew (mkInst env conts items (.dict [(.str "figure", .dict [(.str "export", .dict [(.str "type", .str "image"), (.str "path", .str "LIB"), (.str "format", .float (6 / 5))])])]) .none) = some (.settingsError "FIGURE_EXPORT_FORMAT_TYPE") := by decide +kernel
example : (step Arith.exact prob (.settings env (.dict [(.str "figure", .dict [(.str "export", .dict [(.str "type", .str "image"), (.str "path", .str "LIB"), (.str "format", .float (6 / 5))])])]))).2 = .raised (.settingsError "FIGURE_EXPORT_FORMAT_TYPE") := by decide +kernel
example : errNew (mkInst env conts items (.dict [(.str "figure", .dict [(.str "export", .dict [(.str "type", .str "image"), (.str "path", .str "LIB"), (.str "format", .dict [])])])]) .none) = some (.settingsError "FIGURE_EXPORT_FORMAT_TYPE") := by decide +kernel
example : (step Arith.exact prob (.settings env (.dict [(.str "figure", .dict [(.str "export", .dict [(.str "type", .str "image"), (.str "path", .str "LIB"), (.str "format", .dict [])])])]))).2 = .raised (.settingsError "FIGURE_EXPORT_FORMAT_TYPE") := by decide +kernel
example : errNew (mkInst env conts items (.dict [(.str "figure", .dict [(.str "export", .dict [(.str "type", .str "image"), (.str "path", .str "LIB"), (.str "format", .str "unknown")])])]) .none) = some (.settingsError "FIGURE_EXPORT_FORMAT_VALUE") := by decide +kernel
example : (step Arith.exact prob (.settings env (.dict [(.str "figure", .dict [(.str "export", .dict [(.str "type", .str "image"), (.str "path", .str "LIB"), (.str "format", .str "unknown")])])]))).2 = .raised (.settingsError "FIGURE_EXPORT_FORMAT_VALUE") := by decide +kernel
example : errNew (mkInst env conts items (.dict [(.str "figure", .dict [(.str "export", .dict [(.str "type", .str "image"), (.str "path", .str "LIB"), (.str "format", .str "png"), (.str "file_name", .int 1)])])]) .none) = some (.settingsError "FIGURE_EXPORT_FILE_NAME_TYPE") := by decide +kernel
example : (step Arith.exact prob (.settings env (.dict [(.str "figure", .dict [(.str "export", .dict [(.str "type", .str "image"), (.str "path", .str "LIB"), (.str "format", .str "png"), (.str "file_name", .int 1)])])]))).2 = .raised (.settingsError "FIGURE_EXPORT_FILE_NAME_TYPE") := by decide +kernel
example : errNew (mkInst env conts items (.dict [(.str "figure", .dict [(.str "export", .dict [(.str "type", .str "image"), (.str "path", .str "LIB"), (.str "format", .str "png"), (.str "file_name", .float (11 / 10))])])]) .none) = some (.settingsError "FIGURE_EXPORT_FILE_NAME_TYPE") := by decide +kernel
example : (step Arith.exact prob (.settings env (.dict [(.str "figure", .dict [(.str "export", .dict [(.str "type", .str "image"), (.str "path", .str "LIB"), (.str "format", .str "png"), (.str "file_name", .float (11 / 10))])])]))).2 = .raised (.settingsError "FIGURE_EXPORT_FILE_NAME_TYPE") := by decide +kernel
example : errNew (mkInst env conts items (.dict [(.str "figure", .dict [(.str "export", .dict [(.str "type", .str "image"), (.str "path", .str "LIB"), (.str "format", .str "png"), (.str "file_name", .list [.str "lst"])])])]) .none) = some (.settingsError "FIGURE_EXPORT_FILE_NAME_TYPE") := by decide +kernel
example : (step Arith.exact prob (.settings env (.dict [(.str "figure", .dict [(.str "export", .dict [(.str "type", .str "image"), (.str "path", .str "LIB"), (.str "format", .str "png"), (.str "file_name", .list [.str "lst"])])])]))).2 = .raised (.settingsError "FIGURE_EXPORT_FILE_NAME_TYPE") := by decide +kernel
example : errNew (mkInst env conts items (.dict [(.str "figure", .dict [(.str "export", .dict [(.str "type", .str "image"), (.str "path", .str "LIB"), (.str "format", .str "png"), (.str "file_name", .dict [])])])]) .none) = some (.settingsError "FIGURE_EXPORT_FILE_NAME_TYPE") := by decide +kernel
example : (step Arith.exact prob (.settings env (.dict [(.str "figure", .dict [(.str "export", .dict [(.str "type", .str "image"), (.str "path", .str "LIB"), (.str "format", .str "png"), (.str "file_name", .dict [])])])]))).2 = .raised (.settingsError "FIGURE_EXPORT_FILE_NAME_TYPE") := by decide +kernel
example : errNew (mkInst env conts items (.dict [(.str "figure", .dict [(.str "export", .dict [(.str "type", .str "image"), (.str "path", .str "LIB"), (.str "format", .str "png"), (.str "file_name", .str "$")])])]) .none) = some (.settingsError "FIGURE_EXPORT_FILE_NAME_VALUE") := by decide +kernel
example : (step Arith.exact prob (.settings env (.dict [(.str "figure", .dict [(.str "export", .dict [(.str "type", .str "image"), (.str "path", .str "LIB"), (.str "format", .str "png"), (.str "file_name", .str "$")])])]))).2 = .raised (.settingsError "FIGURE_EXPORT_FILE_NAME_VALUE") := by decide +kernel
example : errNew (mkInst env conts items (.dict [(.str "figure", .dict [(.str "export", .dict [(.str "type", .str "image"), (.str "path", .str "LIB"), (.str "format", .str "png"), (.str "file_name", .str "okay_name"), (.str "width", .int 0)])])]) .none) = some (.settingsError "FIGURE_EXPORT_WIDTH_VALUE") := by decide +kernel
example : (step Arith.exact prob (.settings env (.dict [(.str "figure", .dict [(.str "export", .dict [(.str "type", .str "image"), (.str "path", .str "LIB"), (.str "format", .str "png"), (.str "file_name", .str "okay_name"), (.str "width", .int 0)])])]))).2 = .raised (.settingsError "FIGURE_EXPORT_WIDTH_VALUE") := by decide +kernel
example : errNew (mkInst env conts items (.dict [(.str "figure", .dict [(.str "export", .dict [(.str "type", .str "image"), (.str "path", .str "LIB"), (.str "format", .str "png"), (.str "file_name", .str "okay_name"), (.str "width", .str "0")])])]) .none) = some (.settingsError "FIGURE_EXPORT_WIDTH_VALUE") := by decide +kernel
example : (step Arith.exact prob (.settings env (.dict [(.str "figure", .dict [(.str "export", .dict [(.str "type", .str "image"), (.str "path", .str "LIB"), (.str "format", .str "png"), (.str "file_name", .str "okay_name"), (.str "width", .str "0")])])]))).2 = .raised (.settingsError "FIGURE_EXPORT_WIDTH_VALUE") := by decide +kernel
example : errNew (mkInst env conts items (.dict [(.str "figure", .dict [(.str "export", .dict [(.str "type", .str "image"), (.str "path", .str "LIB"), (.str "format", .str "png"), (.str "file_name", .str "okay_name"), (.str "width", .list [.int 0])])])]) .none) = some (.settingsError "FIGURE_EXPORT_WIDTH_VALUE") := by decide +kernel
example : (step Arith.exact prob (.settings env (.dict [(.str "figure", .dict [(.str "export", .dict [(.str "type", .str "image"), (.str "path", .str "LIB"), (.str "format", .str "png"), (.str "file_name", .str "okay_name"), (.str "width", .list [.int 0])])])]))).2 = .raised (.settingsError "FIGURE_EXPORT_WIDTH_VALUE") := by decide +kernel
example : errNew (mkInst env conts items (.dict [(.str "figure", .dict [(.str "export", .dict [(.str "type", .str "image"), (.str "path", .str "LIB"), (.str "format", .str "png"), (.str "file_name", .str "okay_name"), (.str "width", .dict [])])])]) .none) = some (.settingsError "FIGURE_EXPORT_WIDTH_VALUE") := by decide +kernel
example : (step Arith.exact prob (.settings env (.dict [(.str "figure", .dict [(.str "export", .dict [(.str "type", .str "image"), (.str "path", .str "LIB"), (.str "format", .str "png"), (.str "file_name", .str "okay_name"), (.str "width", .dict [])])])]))).2 = .raised (.settingsError "FIGURE_EXPORT_WIDTH_VALUE") := by decide +kernel
example : errNew (mkInst env conts items (.dict [(.str "figure", .dict [(.str "export", .dict [(.str "type", .str "image"), (.str "path", .str "LIB"), (.str "format", .str "png"), (.str "file_name", .str "okay_name"), (.str "width", .int 1000), (.str "height", .int 0)])])]) .none) = some (.settingsError "FIGURE_EXPORT_HEIGHT_VALUE") := by decide +kernel
example : (step Arith.exact prob (.settings env (.dict [(.str "figure", .dict [(.str "export", .dict [(.str "type", .str "image"), (.str "path", .str "LIB"), (.str "format", .str "png"), (.str "file_name", .str "okay_name"), (.str "width", .int 1000), (.str "height", .int 0)])])]))).2 = .raised (.settingsError "FIGURE_EXPORT_HEIGHT_VALUE") := by decide +kernel
example : errNew (mkInst env conts items (.dict [(.str "figure", .dict [(.str "export", .dict [(.str "type", .str "image"), (.str "path", .str "LIB"), (.str "format", .str "png"), (.str "file_name", .str "okay_name"), (.str "width", .int 1000), (.str "height", .str "0")])])]) .none) = some (.settingsError "FIGURE_EXPORT_HEIGHT_VALUE") := by decide +kernel
example : (step Arith.exact prob (.settings env (.dict [(.str "figure", .dict [(.str "export", .dict [(.str "type", .str "image"), (.str "path", .str "LIB"), (.str "format", .str "png"), (.str "file_name", .str "okay_name"), (.str "width", .int 1000), (.str "height", .str "0")])])]))).2 = .raised (.settingsError "FIGURE_EXPORT_HEIGHT_VALUE") := by decide +kernel
example : errNew (mkInst env conts items (.dict [(.str "figure", .dict [(.str "export", .dict [(.str "type", .str "image"), (.str "path", .str "LIB"), (.str "format", .str "png"), (.str "file_name", .str "okay_name"), (.str "width", .int 1000), (.str "height", .list [.int 0])])])]) .none) = some (.settingsError "FIGURE_EXPORT_HEIGHT_VALUE") := by decide +kernel
example : (step Arith.exact prob (.settings env (.dict [(.str "figure", .dict [(.str "export", .dict [(.str "type", .str "image"), (.str "path", .str "LIB"), (.str "format", .str "png"), (.str "file_name", .str "okay_name"), (.str "width", .int 1000), (.str "height", .list [.int 0])])])]))).2 = .raised (.settingsError "FIGURE_EXPORT_HEIGHT_VALUE") := by decide +kernel
example : errNew (mkInst env conts items (.dict [(.str "figure", .dict [(.str "export", .dict [(.str "type", .str "image"), (.str "path", .str "LIB"), (.str "format", .str "png"), (.str "file_name", .str "okay_name"), (.str "width", .int 1000), (.str "height", .dict [])])])]) .none) = some (.settingsError "FIGURE_EXPORT_HEIGHT_VALUE") := by decide +kernel
example : (step Arith.exact prob (.settings env (.dict [(.str "figure", .dict [(.str "export", .dict [(.str "type", .str "image"), (.str "path", .str "LIB"), (.str "format", .str "png"), (.str "file_name", .str "okay_name"), (.str "width", .int 1000), (.str "height", .dict [])])])]))).2 = .raised (.settingsError "FIGURE_EXPORT_HEIGHT_VALUE") := by decide +kernel
example : errNew (mkInst env conts items (.dict [(.str "figure", .dict [(.str "show", .none)])]) .none) = some (.settingsError "FIGURE_SHOW_VALUE") := by decide +kernel
example : (step Arith.exact prob (.settings env (.dict [(.str "figure", .dict [(.str "show", .none)])]))).2 = .raised (.settingsError "FIGURE_SHOW_VALUE") := by decide +kernel
example : errNew (mkInst env conts items (.dict [(.str "figure", .dict [(.str "show", .str "None")])]) .none) = some (.settingsError "FIGURE_SHOW_VALUE") := by decide +kernel
example : (step Arith.exact prob (.settings env (.dict [(.str "figure", .dict [(.str "show", .str "None")])]))).2 = .raised (.settingsError "FIGURE_SHOW_VALUE") := by decide +kernel
example : errNew (mkInst env conts items (.dict [(.str "figure", .dict [(.str "show", .list [])])]) .none) = some (.settingsError "FIGURE_SHOW_VALUE") := by decide +kernel
example : (step Arith.exact prob (.settings env (.dict [(.str "figure", .dict [(.str "show", .list [])])]))).2 = .raised (.settingsError "FIGURE_SHOW_VALUE") := by decide +kernel
example : errNew (mkInst env conts items (.dict [(.str "figure", .dict [(.str "show", .dict [])])]) .none) = some (.settingsError "FIGURE_SHOW_VALUE") := by decide +kernel
example : (step Arith.exact prob (.settings env (.dict [(.str "figure", .dict [(.str "show", .dict [])])]))).2 = .raised (.settingsError "FIGURE_SHOW_VALUE") := by decide +kernel

-- settings_tests/test_validation_max_time_in_seconds.py, test_settings_max_time_in_seconds_validation_error
example : errNew (mkInst env conts items (.dict [(.str "max_time_in_seconds", .int 0)]) .none) = some (.settingsError "MAX_TIME_IN_SECONDS_VALUE") := by decide +kernel
example : (step Arith.exact prob (.settings env (.dict [(.str "max_time_in_seconds", .int 0)]))).2 = .raised (.settingsError "MAX_TIME_IN_SECONDS_VALUE") := by decide +kernel
example : errNew (mkInst env conts items (.dict [(.str "max_time_in_seconds", .str "str")]) .none) = some (.settingsError "MAX_TIME_IN_SECONDS_TYPE") := by decide +kernel
example : (step Arith.exact prob (.settings env (.dict [(.str "max_time_in_seconds", .str "str")]))).2 = .raised (.settingsError "MAX_TIME_IN_SECONDS_TYPE") := by decide +kernel
example : errNew (mkInst env conts items (.dict [(.str "max_time_in_seconds", .list [.int 0])]) .none) = some (.settingsError "MAX_TIME_IN_SECONDS_TYPE") := by decide +kernel
example : (step Arith.exact prob (.settings env (.dict [(.str "max_time_in_seconds", .list [.int 0])]))).2 = .raised (.settingsError "MAX_TIME_IN_SECONDS_TYPE") := by decide +kernel
example : errNew (mkInst env conts items (.dict [(.str "max_time_in_seconds", .dict [(.str "key", .int 0)])]) .none) = some (.settingsError "MAX_TIME_IN_SECONDS_TYPE") := by decide +kernel
example : (step Arith.exact prob (.settings env (.dict [(.str "max_time_in_seconds", .dict [(.str "key", .int 0)])]))).2 = .raised (.settingsError "MAX_TIME_IN_SECONDS_TYPE") := by decide +kernel
example : errNew (mkInst env conts items (.dict [(.str "max_time_in_seconds", .float (11 / 10))]) .none) = some (.settingsError "MAX_TIME_IN_SECONDS_TYPE") := by decide +kernel
example : (step Arith.exact prob (.settings env (.dict [(.str "max_time_in_seconds", .float (11 / 10))]))).2 = .raised (.settingsError "MAX_TIME_IN_SECONDS_TYPE") := by decide +kernel

-- settings_tests/test_validation_rotation.py, test_settings_rotation_validation_error
example : errNew (mkInst env conts items (.dict [(.str "rotation", .int 0)]) .none) = some (.settingsError "ROTATION_TYPE") := by decide +kernel
example : (step Arith.exact prob (.settings env (.dict [(.str "rotation", .int 0)]))).2 = .raised (.settingsError "ROTATION_TYPE") := by decide +kernel
example : errNew (mkInst env conts items (.dict [(.str "rotation", .str "str")]) .none) = some (.settingsError "ROTATION_TYPE") := by decide +kernel
example : (step Arith.exact prob (.settings env (.dict [(.str "rotation", .str "str")]))).2 = .raised (.settingsError "ROTATION_TYPE") := by decide +kernel
example : errNew (mkInst env conts items (.dict [(.str "rotation", .list [.int 0])]) .none) = some (.settingsError "ROTATION_TYPE") := by decide +kernel
example : (step Arith.exact prob (.settings env (.dict [(.str "rotation", .list [.int 0])]))).2 = .raised (.settingsError "ROTATION_TYPE") := by decide +kernel
example : errNew (mkInst env conts items (.dict [(.str "rotation", .dict [(.str "key", .int 0)])]) .none) = some (.settingsError "ROTATION_TYPE") := by decide +kernel
example : (step Arith.exact prob (.settings env (.dict [(.str "rotation", .dict [(.str "key", .int 0)])]))).2 = .raised (.settingsError "ROTATION_TYPE") := by decide +kernel

-- settings_tests/test_validation_settings_format.py, test_settings_format_validation
example : errNew (mkInst env conts items (.int 1) .none) = some (.settingsError "TYPE") := by decide +kernel
example : (step Arith.exact prob (.settings env (.int 1))).2 = .raised (.settingsError "TYPE") := by decide +kernel
example : errNew (mkInst env conts items (.float (6 / 5)) .none) = some (.settingsError "TYPE") := by decide +kernel
example : (step Arith.exact prob (.settings env (.float (6 / 5)))).2 = .raised (.settingsError "TYPE") := by decide +kernel
example : errNew (mkInst env conts items (.str "[]") .none) = some (.settingsError "TYPE") := by decide +kernel
example : (step Arith.exact prob (.settings env (.str "[]"))).2 = .raised (.settingsError "TYPE") := by decide +kernel

-- settings_tests/test_validation_workers_num.py, test_settings_workers_num_validation_error
example : errNew (mkInst env conts items (.dict [(.str "workers_num", .int 0)]) .none) = some (.settingsError "WORKERS_NUM_VALUE") := by decide +kernel
example : (step Arith.exact prob (.settings env (.dict [(.str "workers_num", .int 0)]))).2 = .raised (.settingsError "WORKERS_NUM_VALUE") := by decide +kernel
example : errNew (mkInst env conts items (.dict [(.str "workers_num", .str "str")]) .none) = some (.settingsError "WORKERS_NUM_VALUE") := by decide +kernel
example : (step Arith.exact prob (.settings env (.dict [(.str "workers_num", .str "str")]))).2 = .raised (.settingsError "WORKERS_NUM_VALUE") := by decide +kernel
example : errNew (mkInst env conts items (.dict [(.str "workers_num", .list [.int 0])]) .none) = some (.settingsError "WORKERS_NUM_VALUE") := by decide +kernel
example : (step Arith.exact prob (.settings env (.dict [(.str "workers_num", .list [.int 0])]))).2 = .raised (.settingsError "WORKERS_NUM_VALUE") := by decide +kernel
example : errNew (mkInst env conts items (.dict [(.str "workers_num", .dict [(.str "key", .int 0)])]) .none) = some (.settingsError "WORKERS_NUM_VALUE") := by decide +kernel
example : (step Arith.exact prob (.settings env (.dict [(.str "workers_num", .dict [(.str "key", .int 0)])]))).2 = .raised (.settingsError "WORKERS_NUM_VALUE") := by decide +kernel

end HP.ConformanceErrors
