import Verif.Model.Csv
import Verif.Spec.CsvFile
/-
Lemmas about reading CSV files.
-/
namespace Wassign
open Spec

theorem encodeChar_ascii {c : Char} (h : c.toNat < 128) : encodeChar c = [c.toNat] := by
  unfold encodeChar
  simp [show c.toNat < 0x80 from h]

theorem encodeChar_high {c : Char} (h : 128 ≤ c.toNat) : ∀ b ∈ encodeChar c, 128 ≤ b := by
  unfold encodeChar
  simp only
  rw [if_neg (by omega)]
  split
  · intro b hb
    simp only [List.mem_cons, List.not_mem_nil, or_false] at hb
    omega
  · split <;>
    · intro b hb
      simp only [List.mem_cons, List.not_mem_nil, or_false] at hb
      omega

theorem encodeChar_ne_nil (c : Char) : encodeChar c ≠ [] := by
  unfold encodeChar
  simp only
  split
  · simp
  · split
    · simp
    · split <;> simp

/-- A byte below 128 in the encoding of a character is the character. -/
theorem encodeChar_low {c : Char} {b : Nat} (hb : b ∈ encodeChar c) (h : b < 128) : b = c.toNat := by
  by_cases hc : c.toNat < 128
  · rw [encodeChar_ascii hc] at hb
    simpa using hb
  · have := encodeChar_high (by omega) b hb
    omega

theorem toNat_inj {a b : Char} (h : a.toNat = b.toNat) : a = b := by
  apply Char.ext
  apply UInt32.toNat.inj
  exact h

theorem utf8_no {s : Str} {c : Char} (hc : c.toNat < 128) (h : c ∉ s) : c.toNat ∉ utf8 s := by
  intro hm
  unfold utf8 at hm
  simp only [List.mem_flatMap] at hm
  obtain ⟨x, hx, hb⟩ := hm
  have := encodeChar_low hb hc
  rw [toNat_inj this] at h
  exact h hx

theorem utf8_append (s t : Str) : utf8 (s ++ t) = utf8 s ++ utf8 t := by simp [utf8]
theorem utf8_cons (c : Char) (t : Str) : utf8 (c :: t) = encodeChar c ++ utf8 t := by simp [utf8]

theorem isValid (c : Char) : c.toNat.isValidChar := c.valid

theorem ofNat_toNat (c : Char) : Char.ofNat c.toNat = c := Char.ofNat_toNat c

theorem toNat_lt (c : Char) : c.toNat < 1114112 := by
  have := isValid c
  unfold Nat.isValidChar at this
  omega

theorem charOf_self (c : Char) : charOf c.toNat (encodeChar c) = some c := by
  unfold charOf
  rw [ofNat_toNat, if_pos ⟨isValid c, rfl⟩]

theorem nextChar_ascii {a : Nat} (h : a < 0x80) (rest : List Nat) : nextChar (a :: rest) = some (Char.ofNat a, rest) := by
  unfold nextChar
  simp only [h, if_true]

theorem nextChar_two {a b : Nat} (h1 : ¬ a < 0x80) (h2 : a < 0xE0) (rest : List Nat) : nextChar (a :: b :: rest) =
    (charOf ((a - 0xC0) * 64 + (b - 0x80)) [a, b]).map (fun c => (c, rest)) := by
  unfold nextChar
  simp only [h1, h2, if_true, if_false]

theorem nextChar_three {a b c : Nat} (h1 : ¬ a < 0x80) (h2 : ¬ a < 0xE0) (h3 : a < 0xF0) (rest : List Nat) :
    nextChar (a :: b :: c :: rest) =
    (charOf ((a - 0xE0) * 4096 + (b - 0x80) * 64 + (c - 0x80)) [a, b, c]).map (fun c => (c, rest)) := by
  unfold nextChar
  simp only [h1, h2, h3, if_true, if_false]

theorem nextChar_four {a b c d : Nat} (h1 : ¬ a < 0x80) (h2 : ¬ a < 0xE0) (h3 : ¬ a < 0xF0) (rest : List Nat) :
    nextChar (a :: b :: c :: d :: rest) =
    (charOf ((a - 0xF0) * 262144 + (b - 0x80) * 4096 + (c - 0x80) * 64 + (d - 0x80)) [a, b, c, d]).map (fun c => (c, rest)) := by
  unfold nextChar
  simp only [h1, h2, h3, if_false]

theorem nextChar_char (c : Char) (rest : List Nat) : nextChar (encodeChar c ++ rest) = some (c, rest) := by
  have hlt := toNat_lt c
  have hself := charOf_self c
  have e := ofNat_toNat c
  unfold encodeChar at hself ⊢
  simp only at hself ⊢
  split
  · next h =>
    show nextChar (c.toNat :: rest) = _
    rw [nextChar_ascii h, e]
  · next h =>
    rw [if_neg h] at hself
    split
    · next h2 =>
      rw [if_pos h2] at hself
      simp only [List.cons_append, List.nil_append]
      rw [nextChar_two (by omega) (by omega),
        show (0xC0 + c.toNat / 64 - 0xC0) * 64 + (0x80 + c.toNat % 64 - 0x80) = c.toNat from by omega, hself]
      rfl
    · next h2 =>
      rw [if_neg h2] at hself
      split
      · next h3 =>
        rw [if_pos h3] at hself
        simp only [List.cons_append, List.nil_append]
        rw [nextChar_three (by omega) (by omega) (by omega),
          show (0xE0 + c.toNat / 4096 - 0xE0) * 4096 + (0x80 + c.toNat / 64 % 64 - 0x80) * 64 + (0x80 + c.toNat % 64 - 0x80) =
            c.toNat from by omega, hself]
        rfl
      · next h3 =>
        rw [if_neg h3] at hself
        simp only [List.cons_append, List.nil_append]
        rw [nextChar_four (by omega) (by omega) (by omega),
          show (0xF0 + c.toNat / 262144 - 0xF0) * 262144 + (0x80 + c.toNat / 4096 % 64 - 0x80) * 4096 +
            (0x80 + c.toNat / 64 % 64 - 0x80) * 64 + (0x80 + c.toNat % 64 - 0x80) = c.toNat from by omega, hself]
        rfl

theorem decodeGo_encode : ∀ (s : Str) (n : Nat), s.length ≤ n → decodeGo n (utf8 s) = some s
  | [], n, _ => by cases n <;> rfl
  | c :: s, n + 1, h => by
    have hn := nextChar_char c (utf8 s)
    rw [← utf8_cons] at hn
    have hne : utf8 (c :: s) ≠ [] := by rw [utf8_cons]; simp [encodeChar_ne_nil c]
    unfold decodeGo
    split
    · next he => exact absurd he hne
    · rename_i heq _ ; cases heq
    · rename_i heq _
      cases heq
      rw [hn]
      simp only
      rw [decodeGo_encode s n (by simpa using h)]
      rfl

theorem length_encode : ∀ s : Str, s.length ≤ (utf8 s).length
  | [] => by simp
  | c :: s => by
    have := length_encode s
    have h : 0 < (encodeChar c).length := List.length_pos_iff.mpr (encodeChar_ne_nil c)
    rw [utf8_cons, List.length_append, List.length_cons]
    omega

theorem ofUtf8_utf8 (s : Str) : ofUtf8 (utf8 s) = some s := decodeGo_encode s _ (length_encode s)

theorem charOf_some {n : Nat} {bytes : List Nat} {c : Char} (h : charOf n bytes = some c) : encodeChar c = bytes := by
  unfold charOf at h
  split at h
  · next hc => cases h; exact hc.2
  · cases h

theorem nextChar_some {bytes rest : List Nat} {c : Char} (h : nextChar bytes = some (c, rest)) : bytes = encodeChar c ++ rest := by
  unfold nextChar at h
  split at h
  · cases h
  · next a l =>
    split at h
    · next ha =>
      cases h
      have : (Char.ofNat a).toNat = a := by
        have hv : a.isValidChar := by unfold Nat.isValidChar; omega
        unfold Char.ofNat
        rw [dif_pos hv]
        rfl
      rw [encodeChar_ascii (by omega), this]
      rfl
    · split at h
      · split at h
        · obtain ⟨c', hc, h⟩ := Option.map_eq_some_iff.mp h
          cases h
          rw [charOf_some hc]
          rfl
        · cases h
      · split at h
        · split at h
          · obtain ⟨c', hc, h⟩ := Option.map_eq_some_iff.mp h
            cases h
            rw [charOf_some hc]
            rfl
          · cases h
        · split at h
          · obtain ⟨c', hc, h⟩ := Option.map_eq_some_iff.mp h
            cases h
            rw [charOf_some hc]
            rfl
          · cases h

theorem decodeGo_some : ∀ {n : Nat} {bytes : List Nat} {s : Str}, decodeGo n bytes = some s → utf8 s = bytes
  | _, [], s, h => by
    unfold decodeGo at h
    simp only [Option.some.injEq] at h
    subst h
    rfl
  | 0, _ :: _, _, h => by cases h
  | n + 1, b :: bytes, s, h => by
    unfold decodeGo at h
    split at h
    · cases h
    · next r hr =>
      obtain ⟨s', hs, h⟩ := Option.map_eq_some_iff.mp h
      subst h
      rw [utf8_cons, decodeGo_some hs, nextChar_some (c := r.1) (rest := r.2) hr]

/-- Only the encoding of a text is decoded to it. -/
theorem ofUtf8_some {bytes : List Nat} {s : Str} (h : ofUtf8 bytes = some s) : utf8 s = bytes := decodeGo_some h

namespace Csv

/-! ## Runs of the reader -/

def run (d : Nat) (r : Reader) (bs : List Nat) : Reader := bs.foldl (Reader.step d) r

theorem run_append (d : Nat) (r : Reader) (a b : List Nat) : run d r (a ++ b) = run d (run d r a) b := List.foldl_append
theorem run_cons (d : Nat) (r : Reader) (c : Nat) (b : List Nat) : run d r (c :: b) = run d (r.step d c) b := rfl

/-- Bytes of an unquoted field. -/
theorem run_inField {d : Nat} : ∀ {bs f fs rs}, (∀ b ∈ bs, b ≠ d ∧ b ≠ 10 ∧ b ≠ 13) →
    run d ⟨.inField, f, fs, rs⟩ bs = ⟨.inField, f ++ bs, fs, rs⟩
  | [], f, fs, rs, _ => by simp [run]
  | b :: bs, f, fs, rs, h => by
    have hb := h b (by simp)
    rw [run_cons]
    simp only [Reader.step, Reader.plain]
    rw [if_neg hb.1, if_neg (by omega), run_inField (fun x hx => h x (by simp [hx]))]
    simp

/-- Bytes of a quoted field. -/
theorem run_quotedBytes {d : Nat} : ∀ {bs f fs rs}, (∀ b ∈ bs, b ≠ 34) →
    run d ⟨.inQuoted, f, fs, rs⟩ bs = ⟨.inQuoted, f ++ bs, fs, rs⟩
  | [], f, fs, rs, _ => by simp [run]
  | b :: bs, f, fs, rs, h => by
    rw [run_cons]
    simp only [Reader.step]
    rw [if_neg (h b (by simp)), run_quotedBytes (fun x hx => h x (by simp [hx]))]
    simp

theorem quote_toNat : ('"' : Char).toNat = 34 := by decide
theorem utf8_quote : encodeChar '"' = [34] := by decide

/-- The inside of a quoted field. -/
theorem run_quoted {d : Nat} : ∀ {v : Str} {f fs rs},
    run d ⟨.inQuoted, f, fs, rs⟩ (utf8 (v.flatMap (fun c => if c = '"' then ['"', '"'] else [c]))) = ⟨.inQuoted, f ++ utf8 v, fs, rs⟩
  | [], f, fs, rs => by simp [run, utf8]
  | c :: v, f, fs, rs => by
    rw [List.flatMap_cons, utf8_append, run_append]
    by_cases hc : c = '"'
    · subst hc
      simp only [if_true]
      have : utf8 ['"', '"'] = [34, 34] := by decide
      rw [this, run_cons, run_cons]
      simp only [Reader.step, if_true]
      have h0 : run d ⟨.inQuoted, f ++ [34], fs, rs⟩ [] = ⟨.inQuoted, f ++ [34], fs, rs⟩ := rfl
      rw [h0, run_quoted, utf8_cons, utf8_quote]
      simp
    · rw [if_neg hc]
      have : utf8 [c] = encodeChar c := by simp [utf8]
      rw [this, run_quotedBytes, run_quoted, utf8_cons]
      · simp
      · intro b hb hb'
        subst hb'
        have := encodeChar_low hb (by omega)
        rw [← quote_toNat] at this
        exact hc (toNat_inj this).symm

/-- The states in which a field may begin. -/
def Begins (r : Reader) : Prop := r.field = [] ∧ (r.state = .startField ∨ r.state = .startRecord ∨ r.state = .crlf)

/-- After a field: nothing but the field is there, and a delimiter or line end or the end of the file will end it. -/
def Ended (d : Nat) (r : Reader) (f : List Nat) (fs : List (List Nat)) (rs : List (List (List Nat))) : Prop :=
  r.step d d = ⟨.startField, [], fs ++ [f], rs⟩ ∧
  (∀ c, c = 10 ∨ c = 13 → r.step d c = ⟨if c = 13 then .crlf else .startRecord, [], [], rs ++ [fs ++ [f]]⟩) ∧
  r.finish = rs ++ [fs ++ [f]]

structure Sep (d : Nat) : Prop where
  low : d < 128
  quote : d ≠ 34
  lf : d ≠ 10
  cr : d ≠ 13

theorem ended_inField {d : Nat} (hd : Sep d) (f fs rs) : Ended d ⟨.inField, f, fs, rs⟩ f fs rs := by
  refine ⟨?_, fun c hc => ?_, rfl⟩
  · simp [Reader.step, Reader.plain, Reader.endField]
  · have : c ≠ d := by have := hd.lf; have := hd.cr; omega
    simp only [Reader.step, Reader.plain]
    rw [if_neg this, if_pos hc]
    rfl

theorem ended_afterQuote {d : Nat} (hd : Sep d) (f fs rs) : Ended d ⟨.afterQuote, f, fs, rs⟩ f fs rs := by
  refine ⟨?_, fun c hc => ?_, rfl⟩
  · simp [Reader.step, Reader.plain, Reader.endField, hd.quote]
  · have : c ≠ d := by have := hd.lf; have := hd.cr; omega
    have h34 : c ≠ 34 := by omega
    simp only [Reader.step, Reader.plain]
    rw [if_neg h34, if_neg this, if_pos hc]
    rfl

theorem ended_startField {d : Nat} (hd : Sep d) (fs rs) : Ended d ⟨.startField, [], fs, rs⟩ [] fs rs := by
  refine ⟨?_, fun c hc => ?_, rfl⟩
  · simp [Reader.step, Reader.first, Reader.plain, Reader.endField, hd.quote]
  · have : c ≠ d := by have := hd.lf; have := hd.cr; omega
    have h34 : c ≠ 34 := by omega
    simp only [Reader.step, Reader.first, Reader.plain]
    rw [if_neg h34, if_neg this, if_pos hc]
    rfl

/-- The first byte of a field, if it is not special. -/
theorem step_first {d b : Nat} {st : State} {fs rs} (hst : st = .startField ∨ st = .startRecord ∨ st = .crlf)
    (h : b ≠ d ∧ b ≠ 10 ∧ b ≠ 13) (hq : b ≠ 34) : Reader.step d ⟨st, [], fs, rs⟩ b = ⟨.inField, [b], fs, rs⟩ := by
  rcases hst with rfl | rfl | rfl <;> simp [Reader.step, Reader.line, Reader.first, Reader.plain, h, hq]

theorem step_quote {d : Nat} {st : State} {fs rs} (hst : st = .startField ∨ st = .startRecord ∨ st = .crlf) :
    Reader.step d ⟨st, [], fs, rs⟩ 34 = ⟨.inQuoted, [], fs, rs⟩ := by
  rcases hst with rfl | rfl | rfl <;> simp [Reader.step, Reader.line, Reader.first]

/-- A delimiter at the beginning of a line (the first cell is empty). -/
theorem step_delim {d : Nat} (hd : Sep d) {st : State} {fs rs} (hst : st = .startField ∨ st = .startRecord ∨ st = .crlf) :
    Reader.step d ⟨st, [], fs, rs⟩ d = ⟨.startField, [], fs ++ [[]], rs⟩ := by
  rcases hst with rfl | rfl | rfl <;> simp [Reader.step, Reader.line, Reader.first, Reader.plain, Reader.endField, hd.quote, hd.lf, hd.cr]

theorem plain_bytes {sep : Char} (hd : Sep sep.toNat) {v : Str} (hv : ∀ c ∈ v, c ≠ sep ∧ c ≠ '\n' ∧ c ≠ '\r') :
    ∀ b ∈ utf8 v, b ≠ sep.toNat ∧ b ≠ 10 ∧ b ≠ 13 := by
  intro b hb
  refine ⟨?_, ?_, ?_⟩ <;> intro he <;> subst he
  · exact utf8_no hd.low (fun h => (hv _ h).1 rfl) hb
  · exact utf8_no (c := '\n') (by decide) (fun h => (hv _ h).2.1 rfl) hb
  · exact utf8_no (c := '\r') (by decide) (fun h => (hv _ h).2.2 rfl) hb

/-- A written cell that is not the empty text. -/
theorem run_cell {sep : Char} (hd : Sep sep.toNat) {v t : Str} (h : CellText sep v t) (hne : t ≠ []) {st : State} {fs rs}
    (hst : st = .startField ∨ st = .startRecord ∨ st = .crlf) :
    Ended sep.toNat (run sep.toNat ⟨st, [], fs, rs⟩ (utf8 t)) (utf8 v) fs rs := by
  rcases h with ⟨rfl, hv, hq⟩ | rfl
  · match t, hne with
    | c :: t, _ =>
      have hb := plain_bytes hd hv
      match he : encodeChar c, encodeChar_ne_nil c with
      | b :: bs, _ =>
        have hb0 : b ≠ 34 := by
          intro h34
          subst h34
          have := encodeChar_low (c := c) (b := 34) (by rw [he]; simp) (by omega)
          rw [← quote_toNat] at this
          exact hq (by simp [(toNat_inj this).symm])
        rw [utf8_cons, he] at hb ⊢
        simp only [List.cons_append] at hb ⊢
        rw [run_cons, step_first hst (hb b (by simp)) hb0, run_inField (fun x hx => hb x (by simp at hx ⊢; right; exact hx))]
        exact ended_inField hd _ _ _
  · unfold quotedText
    rw [utf8_append, utf8_append, run_append, run_append]
    have : utf8 ['"'] = [34] := by decide
    rw [this]
    have hs : run sep.toNat ⟨st, [], fs, rs⟩ [34] = ⟨.inQuoted, [], fs, rs⟩ := step_quote hst
    rw [hs]
    have h0 : run sep.toNat ⟨.inQuoted, [], fs, rs⟩ [] = ⟨.inQuoted, [], fs, rs⟩ := rfl
    rw [run_quoted]
    have h1 : run sep.toNat ⟨.inQuoted, [] ++ utf8 v, fs, rs⟩ [34] = ⟨.afterQuote, utf8 v, fs, rs⟩ := by simp [run, Reader.step]
    rw [h1]
    exact ended_afterQuote hd _ _ _

theorem cell_nil {sep : Char} {v : Str} (h : CellText sep v []) : v = [] := by
  rcases h with ⟨h, _⟩ | h
  · exact h.symm
  · simp [quotedText] at h

/-- The cells of a line after the first separator. -/
theorem run_cells {sep : Char} (hd : Sep sep.toNat) : ∀ {row : List Str} {ts : List Str}, List.Forall₂ (CellText sep) row ts → row ≠ [] →
    ∀ {fs rs}, ∃ r, run sep.toNat ⟨.startField, [], fs, rs⟩ (utf8 (List.intercalate [sep] ts)) = r ∧
      ∃ f gs, Ended sep.toNat r f gs rs ∧ gs ++ [f] = fs ++ row.map utf8
  | [], _, _, hne, _, _ => absurd rfl hne
  | v :: row, [], h, _, _, _ => by cases h
  | v :: [], [t], h, _, fs, rs => by
    cases h with
    | cons hc _ =>
      refine ⟨_, rfl, utf8 v, fs, ?_, by simp⟩
      simp only [List.intercalate_singleton]
      by_cases ht : t = []
      · subst ht
        have := cell_nil hc
        subst this
        exact ended_startField hd _ _
      · exact run_cell hd hc ht (.inl rfl)
  | v :: [], _ :: _ :: _, h, _, _, _ => by
    cases h with
    | cons _ h => cases h
  | v :: v' :: row, [_], h, _, _, _ => by
    cases h with
    | cons _ h => cases h
  | v :: v' :: row, t :: t' :: ts, h, _, fs, rs => by
    cases h with
    | cons hc h =>
      have hsep : encodeChar sep = [sep.toNat] := encodeChar_ascii hd.low
      have he : utf8 (List.intercalate [sep] (t :: t' :: ts)) = utf8 t ++ (sep.toNat :: utf8 (List.intercalate [sep] (t' :: ts))) := by
        rw [List.intercalate_cons_cons, utf8_append, utf8_append]
        simp [utf8, hsep]
      rw [he, run_append, run_cons]
      have hstep : (run sep.toNat ⟨.startField, [], fs, rs⟩ (utf8 t)).step sep.toNat sep.toNat = ⟨.startField, [], fs ++ [utf8 v], rs⟩ := by
        by_cases ht : t = []
        · subst ht
          have := cell_nil hc
          subst this
          exact step_delim hd (.inl rfl)
        · exact (run_cell hd hc ht (.inl rfl)).1
      rw [hstep]
      obtain ⟨r, hr, f, gs, he, hg⟩ := run_cells hd h (by simp) (fs := fs ++ [utf8 v]) (rs := rs)
      exact ⟨r, hr, f, gs, he, by rw [hg]; simp⟩

/-- A line. -/
theorem run_row {sep : Char} (hd : Sep sep.toNat) {row : List Str} {t : Str} (h : RowText sep row t) {st : State} {rs}
    (hst : st = .startRecord ∨ st = .crlf) :
    ∃ f gs, Ended sep.toNat (run sep.toNat ⟨st, [], [], rs⟩ (utf8 t)) f gs rs ∧ gs ++ [f] = row.map utf8 := by
  obtain ⟨hrow, ht, ts, hts, rfl⟩ := h
  have hst' : st = .startField ∨ st = .startRecord ∨ st = .crlf := .inr hst
  match row, ts, hts with
  | [v], [t], .cons hc .nil =>
    simp only [List.intercalate_singleton] at ht ⊢
    exact ⟨utf8 v, [], run_cell hd hc ht hst', by simp⟩
  | v :: v' :: row, t :: t' :: ts, .cons hc h =>
    have hsep : encodeChar sep = [sep.toNat] := encodeChar_ascii hd.low
    have he : utf8 (List.intercalate [sep] (t :: t' :: ts)) = utf8 t ++ (sep.toNat :: utf8 (List.intercalate [sep] (t' :: ts))) := by
      rw [List.intercalate_cons_cons, utf8_append, utf8_append]
      simp [utf8, hsep]
    rw [he, run_append, run_cons]
    have hstep : (run sep.toNat ⟨st, [], [], rs⟩ (utf8 t)).step sep.toNat sep.toNat = ⟨.startField, [], [utf8 v], rs⟩ := by
      by_cases ht : t = []
      · subst ht
        have := cell_nil hc
        subst this
        exact step_delim hd hst'
      · have := (run_cell hd hc ht hst' (fs := []) (rs := rs)).1
        simpa using this
    rw [hstep]
    obtain ⟨r, hr, f, gs, he, hg⟩ := run_cells hd h (by simp) (fs := [utf8 v]) (rs := rs)
    exact ⟨f, gs, hr ▸ he, by rw [hg]; simp⟩

/-- A whole file. -/
theorem run_file {sep : Char} (hd : Sep sep.toNat) {rows : List (List Str)} {t : Str} (h : FileText sep rows t) :
    ∀ {st : State} {rs}, st = .startRecord ∨ st = .crlf →
      (run sep.toNat ⟨st, [], [], rs⟩ (utf8 t)).finish = rs ++ rows.map (fun r => r.map utf8) := by
  induction h with
  | nil =>
    intro st rs hst
    rcases hst with rfl | rfl <;> simp [run, utf8, Reader.finish]
  | last hr =>
    intro st rs hst
    obtain ⟨f, gs, he, hg⟩ := run_row hd hr hst (rs := rs)
    rw [he.2.2, hg]
    simp
  | @line row t e rows rest hr hl _ ih =>
    intro st rs hst
    obtain ⟨f, gs, he, hg⟩ := run_row hd hr hst (rs := rs)
    rw [utf8_append, utf8_append, run_append, run_append]
    rcases hl with rfl | rfl | rfl
    · have : utf8 ['\n'] = [10] := by decide
      rw [this, run_cons, he.2.1 10 (.inl rfl), hg]
      have h0 : ∀ r, run sep.toNat r [] = r := fun _ => rfl
      rw [h0, ih (by simp)]
      simp
    · have : utf8 ['\r', '\n'] = [13, 10] := by decide
      rw [this, run_cons, he.2.1 13 (.inr rfl), hg, run_cons]
      have h0 : ∀ r, run sep.toNat r [] = r := fun _ => rfl
      have h1 : Reader.step sep.toNat ⟨.crlf, [], [], rs ++ [row.map utf8]⟩ 10 = ⟨.startRecord, [], [], rs ++ [row.map utf8]⟩ := by
        simp [Reader.step]
      simp only [if_true]
      rw [h1, h0, ih (by simp)]
      simp
    · have : utf8 ['\r'] = [13] := by decide
      rw [this, run_cons, he.2.1 13 (.inr rfl), hg]
      have h0 : ∀ r, run sep.toNat r [] = r := fun _ => rfl
      rw [h0, ih (by simp)]
      simp
  | @blank e rows rest hl _ ih =>
    intro st rs hst
    rw [utf8_append, run_append]
    have h10 : Reader.step sep.toNat ⟨st, [], [], rs⟩ 10 = ⟨.startRecord, [], [], rs⟩ := by
      rcases hst with rfl | rfl <;> simp [Reader.step, Reader.line]
    have h13 : Reader.step sep.toNat ⟨st, [], [], rs⟩ 13 = ⟨.startRecord, [], [], rs⟩ := by
      rcases hst with rfl | rfl <;> simp [Reader.step, Reader.line]
    have h10' : Reader.step sep.toNat ⟨.startRecord, [], [], rs⟩ 10 = ⟨.startRecord, [], [], rs⟩ := by
      simp [Reader.step, Reader.line]
    have h0 : ∀ r, run sep.toNat r [] = r := fun _ => rfl
    rcases hl with rfl | rfl | rfl
    · have : utf8 ['\n'] = [10] := by decide
      rw [this, run_cons, h10, h0, ih (by simp)]
    · have : utf8 ['\r', '\n'] = [13, 10] := by decide
      rw [this, run_cons, h13, run_cons, h10', h0, ih (by simp)]
    · have : utf8 ['\r'] = [13] := by decide
      rw [this, run_cons, h13, h0, ih (by simp)]

/-- There is no byte order mark unless the text begins with it. -/
theorem stripBom_utf8 {t : Str} (h : t.head? ≠ some '\uFEFF') : stripBom (utf8 t) = utf8 t := by
  match t with
  | [] => rfl
  | c :: t =>
    have hc : c.toNat ≠ 0xFEFF := fun he => h (by simp only [List.head?_cons, Option.some.injEq]; exact toNat_inj he)
    have hlt := toNat_lt c
    rw [utf8_cons]
    unfold encodeChar
    simp only
    split
    · simp only [List.cons_append, List.nil_append]
      unfold stripBom
      split
      · next hl => simp only [List.cons.injEq] at hl; omega
      · rfl
    · split
      · simp only [List.cons_append, List.nil_append]
        unfold stripBom
        split
        · next hl => simp only [List.cons.injEq] at hl; omega
        · rfl
      · split
        · simp only [List.cons_append, List.nil_append]
          unfold stripBom
          split
          · next hl => simp only [List.cons.injEq] at hl; omega
          · rfl
        · simp only [List.cons_append, List.nil_append]
          unfold stripBom
          split
          · next hl => simp only [List.cons.injEq] at hl; omega
          · rfl

theorem records_file {sep : Char} (hd : Sep sep.toNat) {rows : List (List Str)} {t : Str} (h : FileText sep rows t)
    (hb : t.head? ≠ some '\uFEFF') : records sep.toNat (utf8 t) = rows.map (fun r => r.map utf8) := by
  unfold records
  rw [stripBom_utf8 hb]
  have := run_file hd h (st := .startRecord) (rs := []) (.inl rfl)
  simpa [run] using this

theorem texts_utf8 : ∀ r : List Str, texts (r.map utf8) = .ok r
  | [] => rfl
  | s :: r => by
    have := texts_utf8 r
    unfold texts at this ⊢
    rw [List.map_cons, List.mapM_cons, this]
    simp only [ofUtf8_utf8]
    rfl

end Csv
end Wassign
