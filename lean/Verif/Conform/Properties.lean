/-
parsing_helpers/tests/test_parse_propeties.py, models/wql/parsing/tests/test_make_properties.py

Generated from the tests of the repo: inputs and expected results are those of the test cases.  These are tests of
the model (do the transcribed functions do what the tests say the real ones do?), not proofs of properties.
-/
import Verif.Model.Props
import Verif.Spec.DemoFS

namespace WG
attribute [local instance] demoRuntime

/-- A float of the tests. -/
def fl (s : Str) : V :=
  match demoFloat s with
  | some f => .flt f
  | none => .none

/-- test_make_properties: EXP PASS: No properties -/
example : getPropertyDict (some c!"") = .ok (none) := by decide +kernel

/-- test_make_properties: EXP PASS: int -/
example : getPropertyDict (some c!"{int: 1}") = .ok (some [(c!"int", .int 1)]) := by decide +kernel

/-- test_make_properties: EXP PASS: int, float -/
example : getPropertyDict (some c!"{int: 1, float: 3.14}") = .ok (some [(c!"int", .int 1), (c!"float", fl c!"3.14")]) := by decide +kernel

/-- test_make_properties: EXP PASS: int, float, bool -/
example : getPropertyDict (some c!"{int: 1, float: 3.14, bool: true}") = .ok (some [(c!"int", .int 1), (c!"float", fl c!"3.14"), (c!"bool", .bool true)]) := by decide +kernel

/-- test_make_properties: EXP PASS: int, float, bool, bool2 -/
example : getPropertyDict (some c!"{int: 1, float: 3.14, bool: true, bool2: false}") = .ok (some [(c!"int", .int 1), (c!"float", fl c!"3.14"), (c!"bool", .bool true), (c!"bool2", .bool false)]) := by decide +kernel

/-- test_make_properties: EXP PASS: int, float, bool, bool2, none -/
example : getPropertyDict (some c!"{int: 1, float: 3.14, bool: true, bool2: false, none: null}") = .ok (some [(c!"int", .int 1), (c!"float", fl c!"3.14"), (c!"bool", .bool true), (c!"bool2", .bool false), (c!"none", .none)]) := by decide +kernel

/-- test_make_properties: EXP PASS: int, float, bool, bool2, none, str -/
example : getPropertyDict (some c!"{int: 1, float: 3.14, bool: true, bool2: false, none: null, str: '2'}") = .ok (some [(c!"int", .int 1), (c!"float", fl c!"3.14"), (c!"bool", .bool true), (c!"bool2", .bool false), (c!"none", .none), (c!"str", .str c!"2")]) := by decide +kernel

/-- test_make_properties: EXP PASS: int, float, bool, bool2, none, str, str2 -/
example : getPropertyDict (some c!"{int: 1, float: 3.14, bool: true, bool2: false, none: null, str: '2', str2:\"2_4\"}") = .ok (some [(c!"int", .int 1), (c!"float", fl c!"3.14"), (c!"bool", .bool true), (c!"bool2", .bool false), (c!"none", .none), (c!"str", .str c!"2"), (c!"str2", .str c!"2_4")]) := by decide +kernel

/-- test_make_properties: EXP PASS: int, float, bool, bool2, none, str, str2, str3 -/
example : getPropertyDict (some c!"{int: 1, float: 3.14, bool: true, bool2: false, none: null, str: '2', str2:\"2_4\", str3: \"3 4 5\"}") = .ok (some [(c!"int", .int 1), (c!"float", fl c!"3.14"), (c!"bool", .bool true), (c!"bool2", .bool false), (c!"none", .none), (c!"str", .str c!"2"), (c!"str2", .str c!"2_4"), (c!"str3", .str c!"3 4 5")]) := by decide +kernel

/-- test_make_properties: EXP PASS: int, float, bool, bool2, none, str, str2, str3, email -/
example : getPropertyDict (some c!"{int: 1, float: 3.14, bool: true, bool2: false, none: null, str: '2', str2:\"2_4\", str3: \"3 4 5\", email: 'foo@bar.net'}") = .ok (some [(c!"int", .int 1), (c!"float", fl c!"3.14"), (c!"bool", .bool true), (c!"bool2", .bool false), (c!"none", .none), (c!"str", .str c!"2"), (c!"str2", .str c!"2_4"), (c!"str3", .str c!"3 4 5"), (c!"email", .str c!"foo@bar.net")]) := by decide +kernel

/-- test_make_properties: EXP PASS: int, float, bool, bool2, none, str, str2, str3, email, phone -/
example : getPropertyDict (some c!"{int: 1, float: 3.14, bool: true, bool2: false, none: null, str: '2', str2:\"2_4\", str3: \"3 4 5\", email: 'foo@bar.net', pn: '+447541254566'}") = .ok (some [(c!"int", .int 1), (c!"float", fl c!"3.14"), (c!"bool", .bool true), (c!"bool2", .bool false), (c!"none", .none), (c!"str", .str c!"2"), (c!"str2", .str c!"2_4"), (c!"str3", .str c!"3 4 5"), (c!"email", .str c!"foo@bar.net"), (c!"pn", .str c!"+447541254566")]) := by decide +kernel

/-- test_make_properties: EXP PASS: int, float, bool, bool2, none, str, str2, str3, email, phone, list -/
example : getPropertyDict (some c!"{int: 1, float: 3.14, bool: true, bool2: false, none: null, str: '2', str2:\"2_4\", str3: \"3 4 5\", email: 'foo@bar.net', pn: '+447541254566',  list: [1, 3.14, true, false, '2', \"2_4\", \"3 4\", \"foo@bar.net\", \"+447541254566\"]}") = .ok (some [(c!"int", .int 1), (c!"float", fl c!"3.14"), (c!"bool", .bool true), (c!"bool2", .bool false), (c!"none", .none), (c!"str", .str c!"2"), (c!"str2", .str c!"2_4"), (c!"str3", .str c!"3 4 5"), (c!"email", .str c!"foo@bar.net"), (c!"pn", .str c!"+447541254566"), (c!"list", .list [.int 1, fl c!"3.14", .bool true, .bool false, .str c!"2", .str c!"2_4", .str c!"3 4", .str c!"foo@bar.net", .str c!"+447541254566"])]) := by decide +kernel

/-- test_make_properties: EXP PASS: int, float, bool, bool2, none, str, str2, str3, email, phone, list, list2 -/
example : getPropertyDict (some c!"{int: 1, float: 3.14, bool: true, bool2: false, none: null, str: '2', str2:\"2_4\", str3: \"3 4 5\", email: 'foo@bar.net', pn: '+447541254566',  list: [1, 3.14, true, false, '2', \"2_4\", \"3 4\", \"foo@bar.net\", \"+447541254566\"], list2: [1, 3.14, true, false, '2', \"2_4\", \"3 4\", \"foo@bar.net\", \"+447541254566\"]}") = .ok (some [(c!"int", .int 1), (c!"float", fl c!"3.14"), (c!"bool", .bool true), (c!"bool2", .bool false), (c!"none", .none), (c!"str", .str c!"2"), (c!"str2", .str c!"2_4"), (c!"str3", .str c!"3 4 5"), (c!"email", .str c!"foo@bar.net"), (c!"pn", .str c!"+447541254566"), (c!"list", .list [.int 1, fl c!"3.14", .bool true, .bool false, .str c!"2", .str c!"2_4", .str c!"3 4", .str c!"foo@bar.net", .str c!"+447541254566"]), (c!"list2", .list [.int 1, fl c!"3.14", .bool true, .bool false, .str c!"2", .str c!"2_4", .str c!"3 4", .str c!"foo@bar.net", .str c!"+447541254566"])]) := by decide +kernel

/-- test_handle_null_property: EXP PASS: Simple case -/
example : handleNull c!"null" = .ok (.none) := by decide +kernel

/-- test_handle_null_property: EXP EXEC: null has capital N -/
example : handleNull c!"Null" = .error .illegalPropertyValue := by decide +kernel

/-- test_handle_null_property: EXP EXEC: Wrong param value -/
example : handleNull c!"None" = .error .illegalPropertyValue := by decide +kernel

/-- test_handle_bool_property: EXP PASS: true -/
example : handleBool c!"true" = .ok (.bool true) := by decide +kernel

/-- test_handle_bool_property: EXP PASS: true -/
example : handleBool c!"false" = .ok (.bool false) := by decide +kernel

/-- test_handle_bool_property: EXP EXEC: True -/
example : handleBool c!"True" = .error .illegalPropertyValue := by decide +kernel

/-- test_handle_bool_property: EXP EXEC: False -/
example : handleBool c!"False" = .error .illegalPropertyValue := by decide +kernel

/-- test_handle_bool_property: EXP EXEC: Not a bool -/
example : handleBool c!"7734" = .error .illegalPropertyValue := by decide +kernel

/-- test_handle_float_property: EXP PASS: Simple Case -/
example : handleFloat c!"3.14" = .ok (fl c!"3.14") := by decide +kernel

/-- test_handle_float_property: EXP PASS: Simple Case -/
example : handleFloat c!"3." = .ok (fl c!"3.0") := by decide +kernel

/-- test_handle_float_property: EXP EXEC: Not a float, int -/
example : handleFloat c!"3" = .error .illegalPropertyValue := by decide +kernel

/-- test_handle_float_property: EXP EXEC: Not a float but str -/
example : handleFloat c!"three point one four" = .error .illegalPropertyValue := by decide +kernel

/-- test_handle_int_property: EXP PASS: Simple Case -/
example : handleInt c!"6" = .ok (.int 6) := by decide +kernel

/-- test_handle_int_property: EXP EXEC: Not an int but float -/
example : handleInt c!"6." = .error .illegalPropertyValue := by decide +kernel

/-- test_handle_int_property: EXP EXEC: Not an int but str -/
example : handleInt c!"three" = .error .illegalPropertyValue := by decide +kernel

/-- test_handle_string_property: EXP PASS: Simple Case, str -/
example : handleString c!"foo" = .ok (.str c!"foo") := by decide +kernel

/-- test_handle_string_property: EXP PASS: Simple Case, int + str -/
example : handleString c!"6 ducks" = .ok (.str c!"6 ducks") := by decide +kernel

/-- test_handle_string_property: EXP PASS: Simple Case, str + str -/
example : handleString c!"foo bar" = .ok (.str c!"foo bar") := by decide +kernel

/-- test_handle_string_property: EXP PASS: Simple Case, email -/
example : handleString c!"foo@bar.net" = .ok (.str c!"foo@bar.net") := by decide +kernel

/-- test_handle_string_property: EXP PASS: Simple Case, phone number -/
example : handleString c!"+447541254566" = .ok (.str c!"+447541254566") := by decide +kernel

/-- test_handle_list_property: EXP PASS:  -/
example : handleList c!"[1, 3.14, true, false, '2', \"2_4\", \"3 4\", \"foo@bar.net\"]" = .ok (.list [.int 1, fl c!"3.14", .bool true, .bool false, .str c!"2", .str c!"2_4", .str c!"3 4", .str c!"foo@bar.net"]) := by decide +kernel

/-- test_handle_list_property: EXP PASS:  -/
example : handleList c!"[1, 3.14 true, false, '2', \"2_4\", \"3 4\", \"foo@bar.net\"]" = .error .illegalPropertyValue := by decide +kernel

/-- test_emit_nodes: EXP PASS: Correct assignment -/
example : (match extractedType [(gName, c!"foo"), (gValue, c!"bar"), (gString, c!"bar")] with | .ok .stringT => true | _ => false) = true := by decide +kernel

/-- test_emit_nodes: EXP EXEC: Two proprieties -/
example : (match extractedType [(gName, c!"foo"), (gValue, c!"bar"), (gString, c!"bar"), (gBool, c!"bar")] with | .error .propertyTypeAssignment => true | _ => false) = true := by decide +kernel

end WG
