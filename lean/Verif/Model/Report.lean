import Verif.Model.ValidFile
/-! # Reports on validations

Models `validate_report`, `error_report` and `html_error_report` (CifFile_module.nw 3903-4051). How Python prints the
values, names and links that a check has complained about is not modelled: it enters as an argument (`Printer`). That
`validate_report` enters the name of the item into the results it is given (3943) is not modelled: nothing else looks at
this entry, and it is the same each time. -/
namespace Verif
namespace Validate
variable [CaseFold]

/-- How lists of values, lists of names, and a single name are printed. -/
structure Printer where
  values : List PyVal → Str
  items : List PyVal → Str
  link : PyVal → Str

/-- `"%-40s" % s` and `"%-20s" % s`: blanks are added up to the width. -/
def padTo (n : Nat) (s : Str) : Str := s ++ List.replicate (n - s.length) ' '

/-- The first half of `info_table` (CifFile_module.nw 3949-3967). -/
def infoTable1 : Dict Str Str :=
  [("validate_item_type".toList, "The following data items had badly formed values".toList),
   ("validate_item_esd".toList, "The following data items should not have esds appended".toList),
   ("validate_enum_range".toList, "The following data items have values outside permitted range".toList),
   ("validate_item_enum".toList, "The following data items have values outside permitted set".toList),
   ("validate_looping".toList, "The following data items violate looping constraints".toList),
   ("validate_loop_membership".toList,
     "The following looped data names are of different categories to the first looped data name".toList),
   ("validate_loop_key".toList, "A required dataname for this category is missing from the loop\n containing the dataname".toList),
   ("validate_loop_key_ddlm".toList, "A loop key is missing for the category containing the dataname".toList),
   ("validate_loop_references".toList, "A dataname required by the item is missing from the loop".toList)]

/-- The second half of `info_table` (CifFile_module.nw 3968-3983). -/
def infoTable2 : Dict Str Str :=
  [("validate_parent".toList, "A parent dataname is missing or contains different values".toList),
   ("validate_child".toList, "A child dataname contains different values to the parent".toList),
   ("validate_uniqueness".toList, "One or more data items do not take unique values".toList),
   ("validate_dependents".toList, "A dataname required by the item is missing from the data block".toList),
   ("validate_exclusion".toList, "Both dataname and exclusive alternates or aliases are present in data block".toList),
   ("validate_mandatory_category".toList, "A required category is missing from this block".toList),
   ("check_mandatory_items".toList, "A required data attribute is missing from this block".toList),
   ("check_prohibited_items".toList, "A prohibited data attribute is present in this block".toList)]

/-- `info_table` (CifFile_module.nw 3949-3983): the texts that explain the failing checks. -/
def infoTable : Dict Str Str := infoTable1 ++ infoTable2

/-- The further entries of a result. -/
def detailOf : Outcome → Detail
  | .bad d => d
  | _ => {}

/-- One round of the inner loop (CifFile_module.nw 3942-3947): the result, with the name of its item, is appended to the
list kept for its check. -/
def addError (d : Dict Str (List (Str × Detail))) (item : Str) (e : Str × Outcome) : Dict Str (List (Str × Detail)) :=
  match dget d e.1 with
  | some l => dset d e.1 (l ++ [(item, detailOf e.2)])
  | none => dset d e.1 [(item, detailOf e.2)]

/-- `error_type_dic` (CifFile_module.nw 3940-3947): the failures by check. -/
def errorTypes (d : Dict Str (List (Str × Detail))) : Dict Str Results → Dict Str (List (Str × Detail))
  | [] => d
  | p :: r => errorTypes (p.2.foldl (fun d e => addError d p.1 e) d) r

/-- The headings of `error_report` (CifFile_module.nw 4000-4010), chosen by the first failure. -/
def textHead (d : Detail) : Str :=
  padTo 40 "Item name".toList ++
  (if d.values.isSome then padTo 20 "Bad value(s)".toList else []) ++
  (if d.items.isSome then padTo 20 "Bad dataname(s)".toList else []) ++
  (if d.child.isSome then padTo 20 "Child".toList else []) ++
  (if d.parent.isSome then padTo 20 "Parent".toList else []) ++ "\n".toList

/-- One row of `error_report` (CifFile_module.nw 4011-4021). -/
def textRow (P : Printer) (e : Str × Detail) : Str :=
  "\n".toList ++ padTo 40 e.1 ++
  (match e.2.values with | some v => padTo 20 (P.values v) | none => []) ++
  (match e.2.items with | some v => padTo 20 (P.items v) | none => []) ++
  (match e.2.child with | some v => padTo 20 (P.link v) | none => []) ++
  (match e.2.parent with | some v => padTo 20 (P.link v) | none => [])

/-- `error_report` (CifFile_module.nw 3998-4022); without failures `error_dics[0]` raises `IndexError`. -/
def errorReport (P : Printer) (explanation : Str) : List (Str × Detail) → Except PyErr Str
  | [] => .error .index
  | e :: r => .ok ("\n\n ".toList ++ explanation ++ ":\n\n".toList ++ textHead e.2 ++ (e :: r).flatMap (textRow P))

/-- The headings of `html_error_report` (CifFile_module.nw 4027-4038). -/
def htmlHead (d : Detail) : Str :=
  "<th>Item name</th>".toList ++
  (if d.values.isSome then "<th>Bad value(s)</th>".toList else []) ++
  (if d.items.isSome then "<th>Bad dataname(s)</th>".toList else []) ++
  (if d.child.isSome then "<th>Child</th>".toList else []) ++
  (if d.parent.isSome then "<th>Parent</th>".toList else []) ++ "</tr>\n".toList

/-- One row of `html_error_report` (CifFile_module.nw 4039-4050). -/
def htmlRow (P : Printer) (e : Str × Detail) : Str :=
  "<tr><td><tt>".toList ++ e.1 ++ "</tt></td>".toList ++
  (match e.2.values with | some v => "<td>".toList ++ P.values v ++ "</td>".toList | none => []) ++
  (match e.2.items with | some v => "<td><tt>".toList ++ P.items v ++ "</tt></td>".toList | none => []) ++
  (match e.2.child with | some v => "<td><tt>".toList ++ P.link v ++ "</tt></td>".toList | none => []) ++
  (match e.2.parent with | some v => "<td><tt>".toList ++ P.link v ++ "</tt></td>".toList | none => []) ++ "</tr>\n".toList

/-- `html_error_report` (CifFile_module.nw 4026-4051). -/
def htmlErrorReport (P : Printer) (explanation : Str) : List (Str × Detail) → Except PyErr Str
  | [] => .error .index
  | e :: r => .ok ("<h4>".toList ++ explanation ++ ":</h4>".toList ++ "<table cellpadding=5><tr>".toList ++ htmlHead e.2 ++
      (e :: r).flatMap (htmlRow P) ++ "</table>\n".toList)

/-- One round of the loop over the failing checks (CifFile_module.nw 3985-3990). -/
def checkReport (P : Printer) (html : Bool) (t : Str × List (Str × Detail)) : Except PyErr Str := do
  match dget infoTable t.1 with
  | none => .error .key
  | some x =>
    if html then htmlErrorReport P x t.2
    else do
      let s ← errorReport P x t.2
      .ok (s ++ "\n\n".toList)

/-- `out_line` (CifFile_module.nw 3919-3922). -/
def outLine (block : Str) (valid : Bool) : Str :=
  if valid then "Block '".toList ++ block ++ "' is VALID".toList else "Block '".toList ++ block ++ "' is INVALID".toList

/-- The headline of a block (CifFile_module.nw 3923-3927). -/
def headPart (html suppress : Bool) (block : Str) (valid : Bool) (unmatched : List Str) : Str :=
  if html then
    if (valid && (!suppress || decide (unmatched.length > 0))) || !valid then
      "<h3>".toList ++ outLine block valid ++ "</h3><p>".toList
    else []
  else "\n ".toList ++ outLine block valid ++ "\n".toList

/-- The list of the names that are not in the dictionary (CifFile_module.nw 3928-3938). -/
def unmatchedPart (html : Bool) (unmatched : List Str) : Str :=
  if unmatched.length ≠ 0 then
    if html then
      "<p>The following items were not found in the dictionary".toList ++
      " (note that this does not invalidate the data block):</p>".toList ++ "<p><table>\n".toList ++
      unmatched.flatMap (fun n => "<tr><td>".toList ++ n ++ "</td></tr>".toList) ++ "</table>\n".toList
    else
      "\n The following items were not found in the dictionary:\n".toList ++
      "Note that this does not invalidate the data block\n".toList ++ unmatched.flatMap (fun n => n ++ "\n".toList)
  else []

/-- The part of the report on one block (CifFile_module.nw 3917-3990). -/
def blockReport (P : Printer) (html suppress : Bool) (noMatches : Dict Str (List Str)) (p : Str × Bool × Dict Str Results) :
    Except PyErr Str :=
  match dget noMatches p.1 with
  | none => .error .key
  | some unmatched => do
    let ts ← mapE (checkReport P html) (errorTypes [] p.2.2)
    .ok (headPart html suppress p.1 p.2.1 unmatched ++ unmatchedPart html unmatched ++ ts.flatten)

/-- The beginning of the report (CifFile_module.nw 3905-3916). -/
def reportHead (html suppress : Bool) : Str :=
  if html then
    "<h2>Validation results</h2>".toList ++
    (if suppress then "<p>For brevity, valid blocks are not reported in the output.</p>".toList else [])
  else "Validation results\n".toList ++ "------------------\n".toList

/-- `validate_report` (CifFile_module.nw 3903-3991), and `report` of `ValidationResult` (3813-3815). -/
def validateReport (P : Printer) (r : FileResult) (html : Bool := false) : Except PyErr Str := do
  let suppress := decide (r.valid.length > 10)
  let bs ← mapE (blockReport P html suppress r.noMatches) r.valid
  .ok (reportHead html suppress ++ bs.flatten)

end Validate
end Verif
