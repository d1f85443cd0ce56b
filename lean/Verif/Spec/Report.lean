import Verif.Model.Report
/-! # Specification of reports on validations

A report is described as a list of sections, one for each block, and these as a headline, a list of unmatched names and a
table for each check that failed. -/
namespace Verif.Spec
open Validate

/-- What is said about a check that has failed. -/
def explanation (check : Str) : Option Str :=
  if check = "validate_item_type".toList then
    some "The following data items had badly formed values".toList
  else if check = "validate_item_esd".toList then
    some "The following data items should not have esds appended".toList
  else if check = "validate_enum_range".toList then
    some "The following data items have values outside permitted range".toList
  else if check = "validate_item_enum".toList then
    some "The following data items have values outside permitted set".toList
  else if check = "validate_looping".toList then
    some "The following data items violate looping constraints".toList
  else if check = "validate_loop_membership".toList then
    some "The following looped data names are of different categories to the first looped data name".toList
  else if check = "validate_loop_key".toList then
    some "A required dataname for this category is missing from the loop\n containing the dataname".toList
  else if check = "validate_loop_key_ddlm".toList then
    some "A loop key is missing for the category containing the dataname".toList
  else if check = "validate_loop_references".toList then
    some "A dataname required by the item is missing from the loop".toList
  else if check = "validate_parent".toList then
    some "A parent dataname is missing or contains different values".toList
  else if check = "validate_child".toList then
    some "A child dataname contains different values to the parent".toList
  else if check = "validate_uniqueness".toList then
    some "One or more data items do not take unique values".toList
  else if check = "validate_dependents".toList then
    some "A dataname required by the item is missing from the data block".toList
  else if check = "validate_exclusion".toList then
    some "Both dataname and exclusive alternates or aliases are present in data block".toList
  else if check = "validate_mandatory_category".toList then
    some "A required category is missing from this block".toList
  else if check = "check_mandatory_items".toList then
    some "A required data attribute is missing from this block".toList
  else if check = "check_prohibited_items".toList then
    some "A prohibited data attribute is present in this block".toList
  else none

/-- A failure: the check, the item, and what was wrong. -/
structure Failure where
  check : Str
  item : Str
  detail : Detail

/-- All failures recorded for a block, in order. -/
def failuresIn (res : Dict Str Results) : List Failure :=
  res.flatMap fun p => p.2.map fun e => ⟨e.1, p.1, match e.2 with | .bad d => d | _ => {}⟩

/-- The failures of one check. -/
def failuresOfCheck (fs : List Failure) (check : Str) : List Failure := fs.filter fun f => decide (f.check = check)

/-- The failing checks, in the order of their first failures. -/
def failedChecks (fs : List Failure) : List Str := (fs.map (·.check)).eraseDups

/-- A table: the name of the check, and its rows. -/
structure Table where
  check : Str
  rows : List Failure

/-- The part of a report on one block. -/
structure Section where
  block : Str
  valid : Bool
  unmatched : List Str
  tables : List Table

/-- The section for a block with the given verdict, failures and unmatched names. -/
def sectionFor (block : Str) (v : Bool × Dict Str Results) (unmatched : List Str) : Section where
  block := block
  valid := v.1
  unmatched := unmatched
  tables := (failedChecks (failuresIn v.2)).map fun c => ⟨c, failuresOfCheck (failuresIn v.2) c⟩

/-- The sections of a report: one for each block, in order. -/
def sectionsFor (r : FileResult) : List Section :=
  r.valid.map fun p => sectionFor p.1 p.2 ((dget r.noMatches p.1).getD [])

/-- A table as text. Each row begins a new line; columns are `width` characters wide or as wide as their contents. -/
def column (width : Nat) (s : Str) : Str := s ++ List.replicate (width - s.length) ' '

/-- The cells of a row after the name of the item. -/
def cells (P : Printer) (d : Detail) : List Str :=
  (d.values.map P.values).toList ++ (d.items.map P.items).toList ++ (d.child.map P.link).toList ++ (d.parent.map P.link).toList

/-- The headings for such cells. -/
def headings (d : Detail) : List Str :=
  (d.values.map fun _ => "Bad value(s)".toList).toList ++ (d.items.map fun _ => "Bad dataname(s)".toList).toList ++
  (d.child.map fun _ => "Child".toList).toList ++ (d.parent.map fun _ => "Parent".toList).toList

/-- A line of a table. -/
def tableLine (first : Str) (others : List Str) : Str := column 40 first ++ others.flatMap (column 20)

/-- A table with its explanation; its headings are those that suit the first row. -/
def tableText (P : Printer) (expl : Str) (rows : List Failure) : Str :=
  "\n\n ".toList ++ expl ++ ":\n\n".toList ++
  tableLine "Item name".toList ((rows.head?.map fun f => headings f.detail).getD []) ++ "\n".toList ++
  rows.flatMap (fun f => "\n".toList ++ tableLine f.item (cells P f.detail)) ++ "\n\n".toList

/-- A section as text. -/
def sectionText (P : Printer) (s : Section) : Str :=
  "\n Block '".toList ++ s.block ++ (if s.valid then "' is VALID\n".toList else "' is INVALID\n".toList) ++
  (if s.unmatched = [] then [] else
    "\n The following items were not found in the dictionary:\n".toList ++
    "Note that this does not invalidate the data block\n".toList ++ s.unmatched.flatMap (· ++ ['\n'])) ++
  s.tables.flatMap fun t => tableText P ((explanation t.check).getD []) t.rows

/-- The whole report as text. -/
def reportText (P : Printer) (ss : List Section) : Str :=
  "Validation results\n".toList ++ "------------------\n".toList ++ ss.flatMap (sectionText P)

/-- Text between an opening and a closing tag. -/
def tagged (o : Str) (s : Str) (c : Str) : Str := o ++ s ++ c

/-- A table as a web page; the values are in ordinary letters, all else as code. -/
def htmlCells (P : Printer) (d : Detail) : List Str :=
  (d.values.map fun v => tagged "<td>".toList (P.values v) "</td>".toList).toList ++
  ((d.items.map P.items).toList ++ (d.child.map P.link).toList ++ (d.parent.map P.link).toList).map
    (fun s => tagged "<td><tt>".toList s "</tt></td>".toList)

/-- A table of a web page with its explanation. -/
def tableHtml (P : Printer) (expl : Str) (rows : List Failure) : Str :=
  tagged "<h4>".toList expl ":</h4>".toList ++ "<table cellpadding=5><tr>".toList ++
  ("Item name".toList :: (rows.head?.map fun f => headings f.detail).getD []).flatMap (fun s => tagged "<th>".toList s "</th>".toList) ++
  "</tr>\n".toList ++
  rows.flatMap (fun f => tagged "<tr><td><tt>".toList f.item "</tt></td>".toList ++ (htmlCells P f.detail).flatten ++ "</tr>\n".toList) ++
  "</table>\n".toList

/-- A section of a web page. When valid blocks are left out (`brief`), the headline of a valid block without unmatched names is
left out. -/
def sectionHtml (P : Printer) (brief : Prop) [Decidable brief] (s : Section) : Str :=
  (if brief ∧ s.valid = true ∧ s.unmatched = [] then [] else
    "<h3>Block '".toList ++ s.block ++ (if s.valid then "' is VALID</h3><p>".toList else "' is INVALID</h3><p>".toList)) ++
  (if s.unmatched = [] then [] else
    "<p>The following items were not found in the dictionary".toList ++
    " (note that this does not invalidate the data block):</p>".toList ++ "<p><table>\n".toList ++
    s.unmatched.flatMap (fun n => tagged "<tr><td>".toList n "</td></tr>".toList) ++ "</table>\n".toList) ++
  s.tables.flatMap fun t => tableHtml P ((explanation t.check).getD []) t.rows

/-- The whole report as a web page: with more than ten blocks the valid ones are left out. -/
def reportHtml (P : Printer) (ss : List Section) : Str :=
  "<h2>Validation results</h2>".toList ++
  (if 10 < ss.length then "<p>For brevity, valid blocks are not reported in the output.</p>".toList else []) ++
  ss.flatMap (sectionHtml P (10 < ss.length))

end Verif.Spec
