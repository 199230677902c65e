import Verif.Proofs.Csv
import Verif.Spec.Csv
/-
C77: CSV files are read as they are written.
-/
namespace Wassign
open Spec Csv

namespace Spec

/-- All rows have the same number of cells. -/
def Rectangular (rows : List (List Str)) : Prop := ∀ r ∈ rows, ∀ r' ∈ rows, r.length = r'.length

/-- A separator that can be used: an ASCII character other than the quote and the line ends. -/
def UsableSeparator (sep : Char) : Prop := sep.toNat < 128 ∧ sep ≠ '"' ∧ sep ≠ '\n' ∧ sep ≠ '\r'

end Spec

theorem sep_of {sep : Char} (h : UsableSeparator sep) : Sep sep.toNat :=
  ⟨h.1, fun e => h.2.1 (toNat_inj (b := '"') e), fun e => h.2.2.1 (toNat_inj (b := '\n') e), fun e => h.2.2.2 (toNat_inj (b := '\r') e)⟩

theorem readCsv_of_records {sep : Char} (hs : UsableSeparator sep) {rows : List (List Str)} {bytes : List Nat}
    (h : records sep.toNat bytes = rows.map (fun r => r.map utf8)) :
    readCsv (some bytes) sep = rows.mapM (fun r =>
      if r.length ≠ (rows.head?.map List.length).getD 0 then .error (.error "CSV error: found record with a different number of fields")
      else .ok r) := by
  unfold readCsv
  rw [if_neg (by have := hs.1; omega)]
  simp only [h]
  have e : ((rows.map (fun r => r.map utf8)).head?.map List.length).getD 0 = (rows.head?.map List.length).getD 0 := by
    cases rows <;> simp
  rw [e]
  generalize (rows.head?.map List.length).getD 0 = n
  clear h e
  induction rows with
  | nil => rfl
  | cons r rows ih =>
    simp only [List.map_cons, List.mapM_cons, List.length_map, ih, texts_utf8]

/-- **C77**: a file written according to the rules, whatever its cells contain and whichever line ends are used, is read as the
table it was written from, if all rows have the same number of cells. -/
theorem C77_read_back (sep : Char) (hs : UsableSeparator sep) (rows : List (List Str)) (t : Str) (h : FileText sep rows t)
    (hb : t.head? ≠ some '\uFEFF') (hr : Rectangular rows) : readCsv (some (utf8 t)) sep = .ok rows := by
  rw [readCsv_of_records hs (records_file (sep_of hs) h hb)]
  have : ∀ n, (∀ r ∈ rows, r.length = n) → rows.mapM (fun r =>
      if r.length ≠ n then (.error (.error "CSV error: found record with a different number of fields") : R (List Str)) else .ok r) = .ok rows := by
    intro n hn
    clear h hr
    induction rows with
    | nil => rfl
    | cons r rows ih =>
      have h1 := ih (fun x hx => hn x (by simp [hx]))
      rw [List.mapM_cons, h1]
      simp [hn r (by simp)]
  apply this
  intro r hmem
  cases rows with
  | nil => simp at hmem
  | cons r0 rows => simpa using hr r hmem r0 (by simp)

/-- **C77**: ... and otherwise it is rejected. -/
theorem C77_ragged_rejected (sep : Char) (hs : UsableSeparator sep) (rows : List (List Str)) (t : Str) (h : FileText sep rows t)
    (hb : t.head? ≠ some '\uFEFF') (hr : ¬ Rectangular rows) : ∃ msg, readCsv (some (utf8 t)) sep = .error (.error msg) := by
  rw [readCsv_of_records hs (records_file (sep_of hs) h hb)]
  have : ∀ n, (¬ ∀ r ∈ rows, r.length = n) → ∃ msg, rows.mapM (fun r =>
      if r.length ≠ n then (.error (.error "CSV error: found record with a different number of fields") : R (List Str)) else .ok r) =
        .error (.error msg) := by
    intro n hn
    clear h hr
    induction rows with
    | nil => exact absurd (by simp) hn
    | cons r rows ih =>
      by_cases hl : r.length = n
      · have : ¬ ∀ r ∈ rows, r.length = n := by
          intro hall
          apply hn
          intro x hx
          rcases List.mem_cons.1 hx with rfl | hx
          · exact hl
          · exact hall x hx
        obtain ⟨msg, hm⟩ := ih this
        refine ⟨msg, ?_⟩
        rw [List.mapM_cons, hm]
        simp [hl]
      · refine ⟨"CSV error: found record with a different number of fields", ?_⟩
        rw [List.mapM_cons]
        simp only [ne_eq, hl, not_false_eq_true, if_true]
        rfl
  apply this
  intro hall
  exact hr (fun r hm r' hm' => by rw [hall r hm, hall r' hm'])

/-- **C77**: a byte order mark at the beginning makes no difference. -/
theorem C77_byte_order_mark (sep : Char) (t : Str) (hb : t.head? ≠ some '\uFEFF') :
    readCsv (some (utf8 ('\uFEFF' :: t))) sep = readCsv (some (utf8 t)) sep := by
  have h1 : utf8 ('\uFEFF' :: t) = 0xEF :: 0xBB :: 0xBF :: utf8 t := by
    rw [utf8_cons]
    rfl
  have h2 : records sep.toNat (utf8 ('\uFEFF' :: t)) = records sep.toNat (utf8 t) := by
    unfold records
    rw [stripBom_utf8 hb, h1]
    rfl
  unfold readCsv
  simp only [h2]

/-- **C77**: whatever is in the file and whatever the separator is, reading never panics; what is read is a rectangular table. -/
theorem C77_any_file (sep : Char) (file : Option (List Nat)) :
    (∃ msg, readCsv file sep = .error (.error msg)) ∨ ∃ rows, readCsv file sep = .ok rows ∧ Rectangular rows := by
  unfold readCsv
  split
  · exact .inl ⟨_, rfl⟩
  · cases file with
    | none => exact .inl ⟨_, rfl⟩
    | some bytes =>
      simp only
      generalize records sep.toNat bytes = rs
      generalize (rs.head?.map List.length).getD 0 = n
      have htexts : ∀ r : List (List Nat), (∃ msg, texts r = .error (.error msg)) ∨ ∃ l, texts r = .ok l ∧ l.length = r.length := by
        intro r
        induction r with
        | nil => exact .inr ⟨[], rfl, rfl⟩
        | cons f r ih =>
          unfold texts at ih ⊢
          rw [List.mapM_cons]
          cases hd : ofUtf8 f with
          | none => exact .inl ⟨_, rfl⟩
          | some s =>
            rcases ih with ⟨msg, h⟩ | ⟨l, h, hl⟩
            · rw [h]
              exact .inl ⟨msg, rfl⟩
            · rw [h]
              exact .inr ⟨s :: l, rfl, by simp [hl]⟩
      have hall : (∃ msg, rs.mapM (fun r =>
          if r.length ≠ n then .error (.error "CSV error: found record with a different number of fields") else texts r) =
            .error (.error msg)) ∨ ∃ rows, rs.mapM (fun r =>
          if r.length ≠ n then .error (.error "CSV error: found record with a different number of fields") else texts r) = .ok rows ∧
            ∀ r ∈ rows, r.length = n := by
        induction rs with
        | nil => exact .inr ⟨[], rfl, by simp⟩
        | cons r rs ih =>
          rw [List.mapM_cons]
          by_cases hl : r.length = n
          · rw [if_neg (by simpa using hl)]
            rcases htexts r with ⟨msg, h⟩ | ⟨l, h, hl'⟩
            · rw [h]
              exact .inl ⟨msg, rfl⟩
            · rcases ih with ⟨msg, hm⟩ | ⟨rows, hm, hr⟩
              · rw [h, hm]
                exact .inl ⟨msg, rfl⟩
              · rw [h, hm]
                refine .inr ⟨l :: rows, rfl, ?_⟩
                intro x hx
                rcases List.mem_cons.1 hx with rfl | hx
                · rw [hl', hl]
                · exact hr x hx
          · rw [if_pos hl]
            exact .inl ⟨_, rfl⟩
      rcases hall with h | ⟨rows, h, hr⟩
      · exact .inl h
      · exact .inr ⟨rows, h, fun r hm r' hm' => by rw [hr r hm, hr r' hm']⟩

/-- **C77**: `readFile` returns the text of the file, and only files that are a text can be read. -/
theorem C77_whole_file (bytes : List Nat) (s : Str) : readFile (some bytes) = .ok s ↔ bytes = utf8 s := by
  unfold readFile
  simp only
  constructor
  · intro h
    cases hd : ofUtf8 bytes with
    | none => rw [hd] at h; cases h
    | some s' => rw [hd] at h; cases h; exact (ofUtf8_some hd).symm
  · rintro rfl
    rw [ofUtf8_utf8]

/-- **C77**: a separator is one character, the first of the string given for it, or a comma if the string is empty; one that does not
fit into a byte is rejected, whatever the file contains, and a file that is not there is rejected with every separator. -/
theorem C77_separators (c sep : Char) (s : Str) (file : Option (List Nat)) :
    separatorOf (c :: s) = c ∧ separatorOf [] = ',' ∧
    (256 ≤ sep.toNat → ∃ msg, readCsv file sep = .error (.error msg)) ∧
    (∃ msg, readCsv none sep = .error (.error msg)) ∧ ∃ msg, readFile none = .error (.error msg) := by
  refine ⟨rfl, rfl, ?_, ?_, _, rfl⟩
  · intro h
    unfold readCsv
    rw [if_pos (by omega)]
    exact ⟨_, rfl⟩
  · unfold readCsv
    split
    · exact ⟨_, rfl⟩
    · exact ⟨_, rfl⟩

/-! ## The files written by the program -/

/-- What is read of a row of a table written by the program: the first cell is as it was; the others have a blank before them
and keep their quotes. -/
def asRead : List Str → List Str
  | [] => []
  | c :: cs => c :: cs.map (fun x => [' ', '"'] ++ x ++ ['"'])

/-- No comma, quote or line end. -/
def PlainName (s : Str) : Prop := ∀ c ∈ s, c ≠ ',' ∧ c ≠ '"' ∧ c ≠ '\n' ∧ c ≠ '\r'

theorem quotedText_plain {v : Str} (h : '"' ∉ v) : quotedText v = ['"'] ++ v ++ ['"'] := by
  unfold quotedText
  congr 2
  induction v with
  | nil => rfl
  | cons c v ih =>
    have hc : c ≠ '"' := fun e => h (by simp [e])
    rw [List.flatMap_cons, if_neg hc, ih (fun hm => h (by simp [hm]))]
    rfl

theorem intercalate_blank (f : Str → Str) : ∀ (c : Str) (cs : List Str),
    List.intercalate [',', ' '] ((c :: cs).map f) = List.intercalate [','] (f c :: cs.map (fun x => ' ' :: f x))
  | c, [] => by simp
  | c, d :: cs => by
    have ih := intercalate_blank f d cs
    simp only [List.map_cons] at ih ⊢
    rw [List.intercalate_cons_cons, ih]
    cases cs with
    | nil => simp [List.intercalate_cons_cons]
    | cons e cs => simp [List.intercalate_cons_cons]

theorem rowText_own {r : List Str} (hne : r ≠ []) (h : ∀ c ∈ r, PlainName c) :
    RowText ',' (asRead r) (List.intercalate [',', ' '] (r.map (fun cell => ['"'] ++ cell ++ ['"']))) := by
  match r, hne with
  | c :: cs, _ =>
    rw [intercalate_blank]
    refine ⟨by simp [asRead], ?_, _, ?_, rfl⟩
    · cases cs with
      | nil => simp
      | cons d cs => simp [List.intercalate_cons_cons]
    · refine .cons ?_ ?_
      · right
        exact (quotedText_plain (fun hm => (h c (by simp) _ hm).2.1 rfl)).symm
      · have : ∀ l : List Str, (∀ x ∈ l, PlainName x) → List.Forall₂ (CellText ',') (l.map (fun x => [' ', '"'] ++ x ++ ['"']))
            (l.map (fun x => ' ' :: (['"'] ++ x ++ ['"']))) := by
          intro l hl
          induction l with
          | nil => exact .nil
          | cons x l ih =>
            refine .cons (.inl ⟨by simp, ?_, by simp⟩) (ih (fun y hy => hl y (by simp [hy])))
            intro ch hch
            simp only [List.cons_append, List.nil_append, List.mem_cons, List.mem_append, List.not_mem_nil, or_false] at hch
            rcases hch with rfl | rfl | hch | rfl
            · decide
            · decide
            · have := hl x (by simp) ch hch
              exact ⟨this.1, this.2.2.1, this.2.2.2⟩
            · decide
        exact this cs (fun x hx => h x (by simp [hx]))

theorem fileText_own : ∀ {t : List (List Str)}, (∀ r ∈ t, r ≠ [] ∧ ∀ c ∈ r, PlainName c) → FileText ',' (t.map asRead) (csv t)
  | [], _ => .nil
  | [r], h => by
    have := rowText_own (h r (by simp)).1 (h r (by simp)).2
    simpa [csv] using FileText.last this
  | r :: r' :: t, h => by
    have h1 := rowText_own (h r (by simp)).1 (h r (by simp)).2
    have h2 := fileText_own (t := r' :: t) (fun x hx => h x (by simp [hx]))
    have := FileText.line (e := ['\n']) h1 (.inl rfl) h2
    have e : csv (r :: r' :: t) = List.intercalate [',', ' '] (r.map (fun cell => ['"'] ++ cell ++ ['"'])) ++ ['\n'] ++ csv (r' :: t) := by
      simp only [csv, List.map_cons]
      rw [List.intercalate_cons_cons]
    rw [e]
    exact this

/-- **C77** (partial: the tables the program writes are not of this form, because it writes a blank after each comma): reading a table
written by the program, whose names contain no commas, quotes and line ends, gives the first column as it is, and all other cells
with a blank in front and with their quotes. -/
theorem C77_own_tables_partial (t : List (List Str)) (h : ∀ r ∈ t, r ≠ [] ∧ ∀ c ∈ r, PlainName c) (hr : Rectangular t) :
    readCsv (some (utf8 (csv t))) ',' = .ok (t.map asRead) := by
  apply C77_read_back ',' (by refine ⟨?_, ?_, ?_, ?_⟩ <;> decide) _ _ (fileText_own h)
  · match t, h with
    | [], _ => simp [csv]
    | r :: t, h =>
      match r, (h r (by simp)).1 with
      | c :: r, _ =>
        cases t <;> cases r <;> simp [csv, List.intercalate_cons_cons] <;> decide
  · have hl : ∀ r : List Str, (asRead r).length = r.length := by
      intro r
      cases r <;> simp [asRead]
    intro a ha b hb
    obtain ⟨a', ha', rfl⟩ := List.mem_map.1 ha
    obtain ⟨b', hb', rfl⟩ := List.mem_map.1 hb
    rw [hl, hl]
    exact hr a' ha' b' hb'

/-- So what is read is not what was written if there is more than one column. -/
theorem C77_own_tables_differ (t : List (List Str)) (h : ∀ r ∈ t, r ≠ [] ∧ ∀ c ∈ r, PlainName c) (hr : Rectangular t)
    (r : List Str) (hm : r ∈ t) (hw : 1 < r.length) : readCsv (some (utf8 (csv t))) ',' ≠ .ok t := by
  rw [C77_own_tables_partial t h hr]
  intro e
  simp only [Except.ok.injEq] at e
  have e' : t.map asRead = t.map id := by simpa using e
  have hb := List.map_inj_left.1 e' r hm
  match r, hw with
  | a :: b :: r, _ =>
    simp only [asRead, List.map_cons, id, List.cons.injEq] at hb
    have := congrArg List.length hb.2.1
    simp at this
    omega

namespace CsvEx

def table : List (List Str) := [["Name".toList, "a \"b\"; c".toList], ["ä€".toList, []]]
def text : Str := "Name;\"a \"\"b\"\"; c\"\r\n\nä€;".toList

/-- A table with quotes, separators and characters beyond ASCII. -/
example : FileText ';' table text ∧ Rectangular table ∧ UsableSeparator ';' ∧ readCsv (some (utf8 text)) ';' = .ok table := by
  have h : FileText ';' table text := by
    have h1 : RowText ';' ["Name".toList, "a \"b\"; c".toList] "Name;\"a \"\"b\"\"; c\"".toList :=
      ⟨by decide, by decide, ["Name".toList, "\"a \"\"b\"\"; c\"".toList], .cons (.inl (by decide)) (.cons (.inr (by decide)) .nil), by decide⟩
    have h2 : RowText ';' ["ä€".toList, []] "ä€;".toList :=
      ⟨by decide, by decide, ["ä€".toList, []], .cons (.inl (by decide)) (.cons (.inl (by decide)) .nil), by decide⟩
    exact FileText.line h1 (.inr (.inl rfl)) (FileText.blank (e := ['\n']) (.inl rfl) (FileText.last h2))
  have hr : Rectangular table := by unfold Rectangular; decide
  have hs : UsableSeparator ';' := by refine ⟨?_, ?_, ?_, ?_⟩ <;> decide
  exact ⟨h, hr, hs, C77_read_back ';' hs table text h (by decide) hr⟩

/-- A name with a comma: the table written by the program cannot be read at all. -/
theorem C77_comma_in_name :
    readCsv (some (utf8 (csv [["Choice".toList, "Slot".toList], ["Painting".toList, "Mon, 9:00".toList]]))) ',' =
      .error (.error "CSV error: found record with a different number of fields") := by decide +kernel

example : readCsv (some (utf8 (csv [["Choice".toList, "Slot".toList], ["Painting".toList, "Mon".toList]]))) ',' =
    .ok [["Choice".toList, " \"Slot\"".toList], ["Painting".toList, " \"Mon\"".toList]] := by decide +kernel

/-- The file of the example in the manual ("Reading from CSV files"). -/
def manual : Str := ("\"Choice\", \"minimum\", \"maximum\", \"optional?\"\n\"A\",      5,         10,         \"no\"\n" ++
  "\"B\",      5,         20,         \"no\"\n\"C\",      10,        30,         \"yes\"\n").toList

/-- The numbers in it are read with the blanks before them, which `bounds` does not accept, and `row[3] == "yes"` does not hold: the
script printed with it is rejected. -/
theorem C77_manual_example_rejected : readCsv (some (utf8 manual)) ',' = .ok [
      ["Choice".toList, " \"minimum\"".toList, " \"maximum\"".toList, " \"optional?\"".toList],
      ["A".toList, "      5".toList, "         10".toList, "         \"no\"".toList],
      ["B".toList, "      5".toList, "         20".toList, "         \"no\"".toList],
      ["C".toList, "      10".toList, "        30".toList, "         \"yes\"".toList]] ∧
    ∃ msg, boundsStr "      5".toList "         10".toList = .error (.error msg) := by
  exact ⟨by decide +kernel, _, rfl⟩

/-- Separators beyond ASCII are accepted, but they are compared with single bytes: the file is rejected as not being a text, or not
separated at all. -/
theorem C77_separator_beyond_ascii : readCsv (some (utf8 "a§b".toList)) '§' = .error (.error "CSV parse error: invalid UTF-8") ∧
    readCsv (some (utf8 "aäb".toList)) 'ä' = .ok [["aäb".toList]] := by decide +kernel

end CsvEx
end Wassign
