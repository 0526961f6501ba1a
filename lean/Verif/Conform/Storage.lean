/-
graph/database/tests, graph/database/indexes/tests, graph/state/tests, models/wql/data/tests, find/transform/tests,
find/short_circuits/tests, wiggle_shell/core/select_gdbms/tests

Transcribed from the tests of the repo: inputs and expected results are those of the test cases.  These are tests of
the model, not proofs of properties.
-/
import Verif.Model.Find
import Verif.Model.Gdbms
import Verif.Spec.DemoFS
import Verif.Conform.Properties

namespace WG
attribute [local instance] demoRuntime

/-! ### The sample GDBMS of the repo (testing/test_gdbms/sample_gdbms) -/

/-- indexes_sample_gdbms.json, written by `json.dump(…, indent=4)`. -/
def sampleIndex : Str :=
  c!"{\n    \"node_relationships\": {},\n    \"node_labels\": [],\n    \"relationship_names\": []\n}\n"

/-- The folder `testing/test_gdbms` with the sample GDBMS. -/
def sampleFS : FS :=
  { folders := [c!"dbs"], dirs := [(c!"dbs", c!"sample_gdbms")], plain := []
    files := [(dbPath c!"dbs" c!"sample_gdbms", c!"{}\n"), (idxPath c!"dbs" c!"sample_gdbms", sampleIndex),
      (wnPath c!"dbs" c!"sample_gdbms", c!"0\n")] }

def sampleG : GPath := gdbmsPath c!"dbs" c!"sample_gdbms"

/-- The layout of the sample index file is that of the model's `json.dump` (the file ends in a line feed). -/
example : (jsonLoad sampleIndex).map (fun v => (jsonDump v).1 ++ c!"\n") = some sampleIndex := by decide +kernel

/-- A sequence of calls, stopping at the first exception. -/
def calls (l : List (Prog Bool)) : Prog Bool :=
  match l with
  | [] => pure true
  | p :: ps => do
    let b ← p
    if b = true then calls ps else pure false

/-! ### test_database.py -/

def testMeta (wn : Int) : V := .dict [(c!"wn", .int wn), (c!"created_at", fl c!"1692176499.688112"), (c!"updated_at", .none)]

def testItems : List (Str × V) :=
  [(c!"102132", .dict [(c!"node_metadata", testMeta 102132), (c!"node_label", .str c!"NodeLabel"),
      (c!"properties", .dict [(c!"str", .str c!"2")]), (c!"relations", .none)]),
   (c!"102133", .dict [(c!"node_metadata", testMeta 102133), (c!"node_label", .str c!"NodeLabel"),
      (c!"properties", .dict [(c!"str2", .str c!"2_4")]), (c!"relations", .list [
        .dict [(c!"relationship_metadata", testMeta 102135), (c!"relationship_name", .str c!"REL"),
          (c!"wn_from_node", .int 102133), (c!"wn_to_node", .int 102132), (c!"properties", .dict [(c!"str", .str c!"2")])],
        .dict [(c!"relationship_metadata", testMeta 102136), (c!"relationship_name", .str c!"REL"),
          (c!"wn_from_node", .int 102133), (c!"wn_to_node", .int 102134), (c!"properties", .dict [(c!"float", fl c!"3.14")])]])]),
   (c!"102134", .dict [(c!"node_metadata", testMeta 102134), (c!"node_label", .str c!"NodeLabel2"),
      (c!"properties", .dict [(c!"list", .list [.int 1, .str c!"2", .str c!"2_4", .str c!"3 4", fl c!"3.14"])]), (c!"relations", .none)])]

/-- test_database: after a wipe nothing is loaded. -/
example : ((do let _ ← wipeDatabase sampleG.db true; loadDatabase sampleG.db).run sampleFS).1 = .ok (.dict []) := by decide +kernel

/-- test_database: after adding, the three records are loaded. -/
example : ((do let _ ← wipeDatabase sampleG.db true; let _ ← addItemToDatabase sampleG.db testItems; loadDatabase sampleG.db).run sampleFS).1 =
    .ok (.dict testItems) := by decide +kernel

/-- test_database: adding the same records again raises NodeExistsError. -/
example : ((do let _ ← wipeDatabase sampleG.db true; let _ ← addItemToDatabase sampleG.db testItems; addItemToDatabase sampleG.db testItems).run sampleFS).1 =
    .error .nodeExists := by decide +kernel

/-! ### test_node_labels_index.py, test_relationship_names.py, test_node_relationship_index.py -/

/-- test_node_labels_index: 0, 3, then 5 labels. -/
example : (loadNodeLabelsIndex sampleG.idx).run sampleFS = (.ok [], sampleFS) ∧
    ((do let _ ← addItemsToNodeLabelsIndex demoOrd sampleG.idx [c!"foo", c!"bar", c!"baz"]; loadNodeLabelsIndex sampleG.idx).run sampleFS).1.toOption.map List.length = some 3 ∧
    ((do let _ ← addItemsToNodeLabelsIndex demoOrd sampleG.idx [c!"foo", c!"bar", c!"baz"]
         let _ ← addItemsToNodeLabelsIndex demoOrd sampleG.idx [c!"fizz", c!"buzz"]
         loadNodeLabelsIndex sampleG.idx).run sampleFS).1.toOption.map List.length = some 5 := by
  refine ⟨?_, ?_, ?_⟩ <;> decide +kernel

/-- test_relationship_names: 0, 3, then 5 names. -/
example : (loadRelationshipNamesIndex sampleG.idx).run sampleFS = (.ok [], sampleFS) ∧
    ((do let _ ← addItemsToRelationshipNamesIndex demoOrd sampleG.idx [c!"FOO", c!"BAR", c!"BAZ"]; loadRelationshipNamesIndex sampleG.idx).run sampleFS).1.toOption.map List.length = some 3 ∧
    ((do let _ ← addItemsToRelationshipNamesIndex demoOrd sampleG.idx [c!"FOO", c!"BAR", c!"BAZ"]
         let _ ← addItemsToRelationshipNamesIndex demoOrd sampleG.idx [c!"FIZZ", c!"BUZZ"]
         loadRelationshipNamesIndex sampleG.idx).run sampleFS).1.toOption.map List.length = some 5 := by
  refine ⟨?_, ?_, ?_⟩ <;> decide +kernel

def testRels : List (Str × List V) := [(c!"500", [.int 503]), (c!"501", [.int 504])]
def testRels2 : List (Str × List V) := [(c!"500", [.int 503, .int 505]), (c!"501", [.int 504, .int 607])]

/-- test_node_relationship_index: 0, 2, then still 2 nodes. -/
example : (loadNodeRelationshipsIndex sampleG.idx).run sampleFS = (.ok [], sampleFS) ∧
    ((do let _ ← addItemsToNodeRelationshipsIndex demoOrd sampleG.idx testRels; loadNodeRelationshipsIndex sampleG.idx).run sampleFS).1.toOption = some testRels ∧
    ((do let _ ← addItemsToNodeRelationshipsIndex demoOrd sampleG.idx testRels
         let _ ← addItemsToNodeRelationshipsIndex demoOrd sampleG.idx testRels2
         loadNodeRelationshipsIndex sampleG.idx).run sampleFS).1.toOption = some testRels2 := by
  refine ⟨?_, ?_, ?_⟩ <;> decide +kernel

/-! ### test_wiggle_number.py -/

/-- test_get_get_current_wiggle_number -/
example : (getCurrentWiggleNumber sampleG.wn).run sampleFS = (.ok 0, sampleFS) := by decide +kernel

/-- test_update_wiggle_number: 10 and 64. -/
example : ((do let n ← getCurrentWiggleNumber sampleG.wn; let _ ← updateWiggleNumber sampleG.wn (n + 10); getCurrentWiggleNumber sampleG.wn).run sampleFS).1 = .ok 10 ∧
    ((do let n ← getCurrentWiggleNumber sampleG.wn; let _ ← updateWiggleNumber sampleG.wn (n + 64); getCurrentWiggleNumber sampleG.wn).run sampleFS).1 = .ok 64 := by
  refine ⟨?_, ?_⟩ <;> decide +kernel

/-! ### test_node_model.py, test_relationship.py -/

/-- test_validate_from_to_wn (node): a relationship of this node, and one of another node. -/
example : (mkNode 2 c!"foo" none (some [⟨1, none, 2, 3, none⟩])).toOption.isSome = true ∧
    (match mkNode 2 c!"foo" none (some [⟨1, none, 6, 7, none⟩]) with | .error .nodeUnrelated => true | _ => false) = true := by
  refine ⟨?_, ?_⟩ <;> decide +kernel

/-- test_validate_from_to_wn (relationship): 2 to 3, and 2 to 2. -/
example : (match makeRelationship { wn := 1, handle := none, name := none, props := none, fromWn := 2, toWn := 3 } with
      | .ok r => r.fromWn == 2 && r.toWn == 3 | _ => false) = true ∧
    (match makeRelationship { wn := 1, handle := none, name := none, props := none, fromWn := 2, toWn := 2 } with
      | .error .relToFrom => true | _ => false) = true := by
  refine ⟨?_, ?_⟩ <;> decide +kernel

/-! ### test_find_pre.py, short circuits -/

def testCriteria : Criteria := [(c!"foo", ⟨[(c!"int", .int 1)], [(c!"str", .str c!"2")]⟩)]

/-- test_add_criteria_add_props_node, …_relationship -/
example : addYesNo testCriteria (some c!"foo") (some []) [] = .ok (some [(c!"int", .int 1)], [(c!"str", .str c!"2")]) := rfl

/-- test_node_label_is_in_index, test_relationship_name_is_in_index -/
example : nodeLabelIsInIndex [c!"foo"] [.str c!"foo", .str c!"bar", .str c!"baz"] = true ∧
    nodeLabelIsInIndex [c!"a"] [.str c!"foo", .str c!"bar", .str c!"baz"] = false ∧
    relationshipNameIsInIndex [c!"FOO"] [.str c!"FOO", .str c!"BAR", .str c!"BAZ"] = true ∧
    relationshipNameIsInIndex [c!"A"] [.str c!"FOO", .str c!"BAR", .str c!"BAZ"] = false := by
  refine ⟨?_, ?_, ?_, ?_⟩ <;> decide +kernel

/-! ### select_gdbms tests -/

/-- The fixture `wigsh_setup_databases`: beside the sample, a database file of the GDBMS `test`. -/
def setupFS : FS := ((createNewDatabase c!"test" c!"dbs").run sampleFS).2

/-- test_list_existing_dbms: two names, `test` among them (the fixture's folder is `testing/test_gdbms`). -/
example : (listExistingDbms [] c!"dbs").run setupFS = (.ok [c!"sample_gdbms", c!"test"], setupFS) := by decide +kernel

/-- test_get_and_display_available_dbms -/
example : (getAndDisplayAvailableDbms c!"dbs").run setupFS = (.ok (some [(c!"A", c!"sample_gdbms"), (c!"B", c!"test")]), setupFS) := by
  decide +kernel

/-- test_create_new_database: the path, the content `{}`, then ValueError, and three names. -/
example : ((createNewDatabase c!"foo2" c!"dbs").run setupFS).1 = .ok (dbPath c!"dbs" c!"foo2") ∧
    lookupFile (dbPath c!"dbs" c!"foo2") ((createNewDatabase c!"foo2" c!"dbs").run setupFS).2.files = some c!"{}" ∧
    ((do let _ ← createNewDatabase c!"foo2" c!"dbs"; createNewDatabase c!"foo2" c!"dbs").run setupFS).1 = .error .value ∧
    ((do let _ ← createNewDatabase c!"foo2" c!"dbs"; listExistingDbms [] c!"dbs").run setupFS).1 = .ok [c!"foo2", c!"sample_gdbms", c!"test"] := by
  refine ⟨?_, ?_, ?_, ?_⟩ <;> decide +kernel

/-- test_create_new_relationship_index: the path, the loaded content, then ValueError. -/
example : ((createNewIndexesFile c!"foo2" c!"dbs").run setupFS).1 = .ok (idxPath c!"dbs" c!"foo2") ∧
    (lookupFile (idxPath c!"dbs" c!"foo2") ((createNewIndexesFile c!"foo2" c!"dbs").run setupFS).2.files).bind jsonLoad =
      some (.dict [(c!"node_relationships", .dict []), (c!"node_labels", .list []), (c!"relationship_names", .list [])]) ∧
    ((do let _ ← createNewIndexesFile c!"foo2" c!"dbs"; createNewIndexesFile c!"foo2" c!"dbs").run setupFS).1 = .error .value := by
  refine ⟨?_, ?_, ?_⟩ <;> decide +kernel

/-- test_create_new_wiggle_number_file: the path, the content 0, then ValueError. -/
example : ((createNewWiggleNumberFile c!"test" c!"dbs").run setupFS).1 = .ok (wnPath c!"dbs" c!"test") ∧
    lookupFile (wnPath c!"dbs" c!"test") ((createNewWiggleNumberFile c!"test" c!"dbs").run setupFS).2.files = some c!"0" ∧
    ((do let _ ← createNewWiggleNumberFile c!"test" c!"dbs"; createNewWiggleNumberFile c!"test" c!"dbs").run setupFS).1 = .error .value := by
  refine ⟨?_, ?_, ?_⟩ <;> decide +kernel

/-- test_get_existing_db_file, …_indexes_…, …_wn_file: the sample is found, another name is not. -/
example : (getExistingFile (dbPath c!"dbs" c!"sample_gdbms")).run setupFS = (.ok sampleG.db, setupFS) ∧
    (getExistingFile (dbPath c!"dbs" c!"NOT A DB")).run setupFS = (.error .fileNotFound, setupFS) ∧
    (getExistingFile (idxPath c!"dbs" c!"sample_gdbms")).run setupFS = (.ok sampleG.idx, setupFS) ∧
    (getExistingFile (idxPath c!"dbs" c!"NOT A rel index")).run setupFS = (.error .fileNotFound, setupFS) ∧
    (getExistingFile (wnPath c!"dbs" c!"sample_gdbms")).run setupFS = (.ok sampleG.wn, setupFS) ∧
    (getExistingFile (wnPath c!"dbs" c!"NOT A WN")).run setupFS = (.error .fileNotFound, setupFS) := by
  refine ⟨?_, ?_, ?_, ?_, ?_, ?_⟩ <;> decide +kernel

/-- test_get_new_gdbms_file_paths -/
example : ((getNewGdbmsFilePaths c!"test_foo" c!"dbs").run setupFS).1.toOption = some (gdbmsPath c!"dbs" c!"test_foo") := by decide +kernel

/-- The fixture's clean-up (`delete_gdbms` of `test`) restores the folder. -/
example : ((deleteGdbms c!"test" c!"dbs").run setupFS).2 = sampleFS := by decide +kernel

end WG
