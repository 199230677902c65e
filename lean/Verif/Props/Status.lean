import Verif.Model.Status
import Verif.Spec.Status
import Verif.Props.Lps
import Verif.Props.Main
/-
C66 and C67: what the user sees while the program works.
-/
namespace Wassign
open Spec Threaded Status
variable {F σ τ ρ : Type}

/-! ## Lines -/

/-- The decomposition into lines is unique. -/
theorem areLines_unique {bytes : List UInt8} {l l' : List (List UInt8)} (h : AreLines bytes l) (h' : AreLines bytes l') : l = l' := by
  obtain ⟨e, h⟩ := h
  obtain ⟨e', h'⟩ := h'
  subst e
  induction l generalizing l' with
  | nil =>
    cases l' with
    | nil => rfl
    | cons x l' => simp at e'
  | cons x l ih =>
    cases l' with
    | nil => simp at e'
    | cons y l' =>
      have key : ∀ (x y : List UInt8) (r r' : List UInt8), lf ∉ x → lf ∉ y → x ++ [lf] ++ r = y ++ [lf] ++ r' → x = y ∧ r = r' := by
        intro x
        induction x with
        | nil =>
          intro y r r' _ hy e
          cases y with
          | nil => simp at e; exact ⟨rfl, e⟩
          | cons b y => simp at e; exact absurd (e.1 ▸ List.mem_cons_self) hy
        | cons a x ihx =>
          intro y r r' hx hy e
          cases y with
          | nil => simp at e; exact absurd (e.1 ▸ List.mem_cons_self) hx
          | cons b y =>
            simp only [List.cons_append, List.cons.injEq] at e
            obtain ⟨h1, h2⟩ := ihx y r r' (fun h => hx (List.mem_cons_of_mem _ h)) (fun h => hy (List.mem_cons_of_mem _ h)) e.2
            exact ⟨by rw [e.1, h1], h2⟩
      simp only [List.flatMap_cons] at e'
      obtain ⟨h1, h2⟩ := key x y _ _ (h x List.mem_cons_self) (h' y List.mem_cons_self) e'
      rw [h1, ih (l' := l') (fun l hl => h l (List.mem_cons_of_mem _ hl)) (fun l hl => h' l (List.mem_cons_of_mem _ hl)) h2]

theorem Spec.AreLines.append {b b' : List UInt8} {l l' : List (List UInt8)} (h : AreLines b l) (h' : AreLines b' l') :
    AreLines (b ++ b') (l ++ l') := by
  obtain ⟨e, h⟩ := h
  obtain ⟨e', h'⟩ := h'
  refine ⟨by rw [e, e', List.flatMap_append], fun x hx => ?_⟩
  rcases List.mem_append.1 hx with hx | hx
  · exact h x hx
  · exact h' x hx

theorem areLines_nil : AreLines [] [] := ⟨rfl, fun _ h => by cases h⟩

/-- Every text is a number of lines and a rest without a line feed. -/
theorem lines_rest : ∀ bytes : List UInt8, ∃ lines rest full, bytes = full ++ rest ∧ AreLines full lines ∧ lf ∉ rest := by
  intro bytes
  induction bytes with
  | nil => exact ⟨[], [], [], rfl, areLines_nil, by simp⟩
  | cons a bytes ih =>
    obtain ⟨lines, rest, full, e, ⟨h1, h2⟩, h3⟩ := ih
    by_cases ha : a = lf
    · subst ha
      refine ⟨[] :: lines, rest, lf :: full, by rw [e]; rfl, ⟨by rw [h1]; rfl, ?_⟩, h3⟩
      intro l hl
      rcases List.mem_cons.1 hl with hl | hl
      · subst hl; simp
      · exact h2 l hl
    · cases lines with
      | nil =>
        refine ⟨[], a :: rest, [], ?_, areLines_nil, ?_⟩
        · have : full = [] := by simpa using h1
          rw [e, this]; rfl
        · intro h
          rcases List.mem_cons.1 h with h | h
          · exact ha h.symm
          · exact h3 h
      | cons l lines =>
        refine ⟨(a :: l) :: lines, rest, a :: full, by rw [e]; rfl, ⟨by rw [h1]; rfl, ?_⟩, h3⟩
        intro x hx
        rcases List.mem_cons.1 hx with hx | hx
        · subst hx
          intro h
          rcases List.mem_cons.1 h with h | h
          · exact ha h.symm
          · exact h2 l List.mem_cons_self h
        · exact h2 x (List.mem_cons_of_mem _ hx)

/-- A text that ends with a line feed is a number of lines. -/
theorem lines_of_text (text : List UInt8) : ∃ lines, AreLines (text ++ [lf]) lines := by
  obtain ⟨lines, rest, full, e, h, h3⟩ := lines_rest text
  exact ⟨lines ++ [rest], by
    rw [e, List.append_assoc]
    exact h.append ⟨by simp, by intro l hl; rw [List.mem_singleton.1 hl]; exact h3⟩⟩

theorem findIdx_line (l r : List UInt8) (h : lf ∉ l) : (l ++ lf :: r).findIdx? (fun b => b == lf) = some l.length := by
  induction l with
  | nil => rfl
  | cons a l ih =>
    have ha : (a == lf) = false := by
      rw [beq_eq_false_iff_ne]; intro e; exact h (e ▸ List.mem_cons_self)
    rw [List.cons_append, List.findIdx?_cons, ha, ih (fun h' => h (List.mem_cons_of_mem _ h'))]
    rfl

theorem findIdx_none (r : List UInt8) (h : lf ∉ r) : r.findIdx? (fun b => b == lf) = none := by
  rw [List.findIdx?_eq_none_iff]
  intro x hx
  rw [beq_eq_false_iff_ne]
  intro e; exact h (e ▸ hx)

theorem drain_spec (can : List (List UInt8) → List UInt8 → Bool) : ∀ (lines : List (List UInt8)) (rest : List UInt8) (fuel : Nat)
    (out : List (List UInt8)), (∀ l ∈ lines, lf ∉ l) → lf ∉ rest → lines.length < fuel →
    ∃ done left : List (List UInt8), ∃ shown : List (List UInt8), lines = done ++ left ∧ shown.Sublist done ∧
      (drain can fuel ⟨lines.flatMap (fun l => l ++ [lf]) ++ rest, out⟩).2 =
        ⟨left.flatMap (fun l => l ++ [lf]) ++ rest, out ++ shown⟩ ∧
      ((drain can fuel ⟨lines.flatMap (fun l => l ++ [lf]) ++ rest, out⟩).1 = true → left = [] ∧ shown = lines) ∧
      ((∀ o l, can o l = true) → (drain can fuel ⟨lines.flatMap (fun l => l ++ [lf]) ++ rest, out⟩).1 = true) := by
  intro lines
  induction lines with
  | nil =>
    intro rest fuel out _ hr hf
    cases fuel with
    | zero => omega
    | succ fuel =>
      refine ⟨[], [], [], rfl, List.Sublist.refl _, ?_⟩
      unfold drain
      simp only [List.flatMap_nil, List.nil_append, findIdx_none rest hr, List.append_nil]
      exact ⟨trivial, fun _ => ⟨trivial, trivial⟩, fun _ => trivial⟩
  | cons l lines ih =>
    intro rest fuel out hl hr hf
    cases fuel with
    | zero => omega
    | succ fuel =>
      have hl1 := hl l List.mem_cons_self
      have eb : (l :: lines).flatMap (fun l => l ++ [lf]) ++ rest = l ++ lf :: (lines.flatMap (fun l => l ++ [lf]) ++ rest) := by
        simp
      have et : (l ++ lf :: (lines.flatMap (fun l => l ++ [lf]) ++ rest)).take (l.length + 1) = l ++ [lf] := by
        rw [show l.length + 1 = (l ++ [lf]).length by simp,
          show l ++ lf :: (lines.flatMap (fun l => l ++ [lf]) ++ rest) = (l ++ [lf]) ++ (lines.flatMap (fun l => l ++ [lf]) ++ rest) by simp,
          List.take_left]
      have ed : (l ++ lf :: (lines.flatMap (fun l => l ++ [lf]) ++ rest)).drop (l.length + 1) =
          lines.flatMap (fun l => l ++ [lf]) ++ rest := by
        rw [show l.length + 1 = (l ++ [lf]).length by simp,
          show l ++ lf :: (lines.flatMap (fun l => l ++ [lf]) ++ rest) = (l ++ [lf]) ++ (lines.flatMap (fun l => l ++ [lf]) ++ rest) by simp,
          List.drop_left]
      rw [eb]
      unfold drain
      simp only [findIdx_line l _ hl1, et, ed]
      have el : (l ++ [lf]).take ((l ++ [lf]).length - 1) = l := by simp
      rw [el]
      unfold printLine
      by_cases hc : can out l = true
      · simp only [hc, if_true]
        obtain ⟨done, left, shown, h1, h2, h3, h4, h5⟩ := ih rest fuel (out ++ [l]) (fun x hx => hl x (List.mem_cons_of_mem _ hx)) hr
          (by simp at hf; omega)
        refine ⟨l :: done, left, l :: shown, by rw [h1]; rfl, h2.cons_cons _, ?_, ?_, h5⟩
        · rw [h3]; simp
        · intro ht
          obtain ⟨a, b⟩ := h4 ht
          exact ⟨a, by rw [b]⟩
      · have hc' : can out l = false := by simpa using hc
        simp only [hc', Bool.false_eq_true, if_false]
        refine ⟨[l], lines, [], rfl, List.nil_sublist _, by simp, fun h => h.elim, fun h => hc (h _ _)⟩

theorem write_piece (can : List (List UInt8) → List UInt8 → Bool) (hcan : ∀ o l, can o l = true) (w : Writer) (piece : List UInt8) :
    ∃ full lines rest, w.buffer ++ piece = full ++ rest ∧ AreLines full lines ∧ lf ∉ rest ∧
      (write can w piece).2 = ⟨rest, w.printed ++ lines⟩ := by
  obtain ⟨lines, rest, full', e', ⟨h1, h2⟩, h3⟩ := lines_rest (w.buffer ++ piece)
  have hlen : lines.length < (w.buffer ++ piece).length + 1 := by
    rw [e', h1]
    have : ∀ ls : List (List UInt8), ls.length ≤ (ls.flatMap (fun l => l ++ [lf])).length := by
      intro ls
      induction ls with
      | nil => simp
      | cons x ls ih => simp only [List.flatMap_cons, List.length_append, List.length_cons, List.length_nil]; omega
    have := this lines
    simp only [List.length_append]
    omega
  obtain ⟨done, left, shown, d1, d2, d3, d4, d5⟩ := drain_spec can lines rest ((w.buffer ++ piece).length + 1) w.printed h2 h3 hlen
  obtain ⟨d6, d7⟩ := d4 (d5 hcan)
  refine ⟨full', lines, rest, e', ⟨h1, h2⟩, h3, ?_⟩
  unfold write
  rw [e', h1] at *
  rw [d3, d6, d7]
  rfl

theorem write_pieces (can : List (List UInt8) → List UInt8 → Bool) (hcan : ∀ o l, can o l = true) (out : List (List UInt8)) :
    ∀ (pieces : List (List UInt8)) (w : Writer) (before : List UInt8),
      (∃ full lines, before = full ++ w.buffer ∧ AreLines full lines ∧ w.printed = out ++ lines ∧ lf ∉ w.buffer) →
      let w' := pieces.foldl (fun w piece => (write can w piece).2) w
      ∃ full lines, before ++ pieces.flatten = full ++ w'.buffer ∧ AreLines full lines ∧ w'.printed = out ++ lines ∧ lf ∉ w'.buffer := by
  intro pieces
  induction pieces with
  | nil => intro w before h; simpa using h
  | cons piece pieces ih =>
    intro w before h
    obtain ⟨full, lines, e, ha, hp, hb⟩ := h
    simp only [List.foldl_cons, List.flatten_cons]
    rw [← List.append_assoc]
    refine ih (write can w piece).2 (before ++ piece) ?_
    obtain ⟨full', lines', rest, e', ha', h3, ew⟩ := write_piece can hcan w piece
    rw [ew]
    refine ⟨full ++ full', lines ++ lines', ?_, ha.append ha', ?_, h3⟩
    · rw [e, List.append_assoc, List.append_assoc, e']
    · rw [hp, List.append_assoc]

/-- **C66**: however a text is cut into pieces, as long as lines can be printed, exactly its complete lines are printed, in order,
and what follows the last line feed is kept. -/
theorem C66_pieces (can : List (List UInt8) → List UInt8 → Bool) (hcan : ∀ o l, can o l = true) (pieces : List (List UInt8)) :
    let w := pieces.foldl (fun w piece => (write can w piece).2) ⟨[], []⟩
    ∃ full, pieces.flatten = full ++ w.buffer ∧ AreLines full w.printed ∧ lf ∉ w.buffer := by
  obtain ⟨full, lines, h1, h2, h3, h4⟩ := write_pieces can hcan [] pieces ⟨[], []⟩ [] ⟨[], [], rfl, areLines_nil, rfl, by simp⟩
  exact ⟨full, h1, by rw [h3]; exact h2, h4⟩

/-- **C66**: flushing prints what was kept, as a line of its own, and keeps nothing back: after any number of texts in pieces, each
followed by a flush, exactly the lines of these texts have been printed, in order, each once. -/
theorem C66_flushed (can : List (List UInt8) → List UInt8 → Bool) (hcan : ∀ o l, can o l = true) (texts : List (List (List UInt8))) :
    let w := texts.foldl (fun w pieces => (flush can (pieces.foldl (fun w piece => (write can w piece).2) w)).2) ⟨[], []⟩
    AreLines (texts.flatMap (fun pieces => closed pieces.flatten)) w.printed ∧ w.buffer = [] := by
  have key : ∀ (texts : List (List (List UInt8))) (w : Writer) (before : List UInt8), AreLines before w.printed → w.buffer = [] →
      let w' := texts.foldl (fun w pieces => (flush can (pieces.foldl (fun w piece => (write can w piece).2) w)).2) w
      AreLines (before ++ texts.flatMap (fun pieces => closed pieces.flatten)) w'.printed ∧ w'.buffer = [] := by
    intro texts
    induction texts with
    | nil => intro w before h h'; simpa using ⟨h, h'⟩
    | cons pieces texts ih =>
      intro w before h h'
      simp only [List.foldl_cons, List.flatMap_cons]
      rw [← List.append_assoc]
      obtain ⟨full, lines, h1, h2, h3, h4⟩ := write_pieces can hcan w.printed pieces w [] ⟨[], [], by simp [h'], areLines_nil, by simp, by simp [h']⟩
      generalize pieces.foldl (fun w piece => (write can w piece).2) w = w1 at h1 h2 h3 h4 ⊢
      rw [List.nil_append] at h1
      by_cases hb : w1.buffer = []
      · rw [hb, List.append_nil] at h1
        have hf : (flush can w1).2 = w1 := by unfold flush; rw [hb]; rfl
        rw [hf]
        refine ih w1 _ ?_ hb
        have hc : closed pieces.flatten = full := by
          unfold closed
          rw [h1, if_pos]
          rcases lines.eq_nil_or_concat with rfl | ⟨ls, l, rfl⟩
          · left; rw [h2.1]; rfl
          · right; rw [h2.1]; simp
        rw [hc, h3]
        exact h.append h2
      · have he : w1.buffer.isEmpty = false := by simpa using hb
        have hf : (flush can w1).2 = ⟨[], w1.printed ++ [w1.buffer]⟩ := by
          unfold flush printLine
          simp [he, hcan]
        rw [hf]
        refine ih ⟨[], w1.printed ++ [w1.buffer]⟩ _ ?_ rfl
        have hc : closed pieces.flatten = full ++ (w1.buffer ++ [lf]) := by
          unfold closed
          rw [h1, if_neg, List.append_assoc]
          rintro (e | e)
          · exact hb (List.append_eq_nil_iff.1 e).2
          · rw [List.getLast?_append_of_ne_nil _ hb] at e
            exact h4 (List.mem_of_getLast? e)
        rw [hc]
        show AreLines _ (w1.printed ++ [w1.buffer])
        rw [h3, List.append_assoc]
        refine h.append (h2.append ⟨by simp, ?_⟩)
        intro l hl
        rw [List.mem_singleton.1 hl]
        exact h4
  have := key texts ⟨[], []⟩ [] areLines_nil rfl
  simpa using this

theorem write_lines (can : List (List UInt8) → List UInt8 → Bool) {w : Writer} {pending : List (List UInt8)} {text : List UInt8}
    {lines : List (List UInt8)} (hp : AreLines w.buffer pending) (ht : AreLines text lines) :
    ∃ done left shown, pending ++ lines = done ++ left ∧ shown.Sublist done ∧ AreLines (write can w text).2.buffer left ∧
      (write can w text).2.printed = w.printed ++ shown ∧
      ((write can w text).1 = true → left = [] ∧ shown = pending ++ lines) ∧
      ((∀ o l, can o l = true) → (write can w text).1 = true) := by
  have ha := hp.append ht
  have hlen : (pending ++ lines).length < (w.buffer ++ text).length + 1 := by
    rw [ha.1]
    have : ∀ ls : List (List UInt8), ls.length ≤ (ls.flatMap (fun l => l ++ [lf])).length := by
      intro ls
      induction ls with
      | nil => simp
      | cons x ls ih => simp only [List.flatMap_cons, List.length_append, List.length_cons, List.length_nil]; omega
    have := this (pending ++ lines)
    omega
  obtain ⟨done, left, shown, d1, d2, d3, d4, d5⟩ := drain_spec can (pending ++ lines) [] ((w.buffer ++ text).length + 1) w.printed
    ha.2 (by simp) hlen
  rw [List.append_nil, ← ha.1] at d3 d4 d5
  refine ⟨done, left, shown, d1, d2, ?_, ?_, d4, d5⟩
  · unfold write
    rw [d3]
    refine ⟨by simp, fun l hl => ha.2 l (by rw [d1]; exact List.mem_append_right _ hl)⟩
  · unfold write
    rw [d3]

/-- **C66**: as long as lines can be printed, exactly the lines of the messages are printed, in order, each once, and nothing is
kept back. -/
theorem C66_messages (can : List (List UInt8) → List UInt8 → Bool) (hcan : ∀ o l, can o l = true) (texts : List (List UInt8)) :
    let w := texts.foldl (emit can) ⟨[], []⟩
    AreLines (texts.flatMap (fun t => t ++ [lf])) w.printed ∧ w.buffer = [] := by
  have key : ∀ (texts : List (List UInt8)) (w : Writer) (before : List UInt8), AreLines before w.printed → w.buffer = [] →
      let w' := texts.foldl (emit can) w
      AreLines (before ++ texts.flatMap (fun t => t ++ [lf])) w'.printed ∧ w'.buffer = [] := by
    intro texts
    induction texts with
    | nil => intro w before h hb; exact ⟨by simpa using h, hb⟩
    | cons t texts ih =>
      intro w before h hb
      simp only [List.foldl_cons, List.flatMap_cons]
      rw [← List.append_assoc]
      obtain ⟨lines, hl⟩ := lines_of_text t
      have hp : AreLines w.buffer [] := by rw [hb]; exact areLines_nil
      obtain ⟨done, left, shown, d1, d2, d3, d4, d5, d6⟩ := write_lines can hp hl
      obtain ⟨d7, d8⟩ := d5 (d6 hcan)
      have hbuf : (write can w (t ++ [lf])).2.buffer = [] := by
        have := d3.1
        rw [d7] at this
        simpa using this
      have ee : emit can w t = (write can w (t ++ [lf])).2 := by
        unfold emit
        simp only [d6 hcan, if_true]
        unfold flush
        rw [hbuf]
        rfl
      rw [ee]
      refine ih _ _ ?_ hbuf
      rw [d4, d8]
      exact h.append hl
  have := key texts ⟨[], []⟩ [] areLines_nil rfl
  simpa using this

/-- **C66**: even if some lines cannot be printed, no line is torn, printed twice or out of order: the printed lines are
some of the lines of the messages, in order. -/
theorem C66_failures (can : List (List UInt8) → List UInt8 → Bool) (texts : List (List UInt8)) (lines : List (List UInt8))
    (hl : AreLines (texts.flatMap (fun t => t ++ [lf])) lines) : (texts.foldl (emit can) ⟨[], []⟩).printed.Sublist lines := by
  have key : ∀ (texts : List (List UInt8)) (w : Writer) (before : List UInt8) (done pending lines : List (List UInt8)),
      AreLines before (done ++ pending) → AreLines w.buffer pending → w.printed.Sublist done →
      AreLines (before ++ texts.flatMap (fun t => t ++ [lf])) lines → (texts.foldl (emit can) w).printed.Sublist lines := by
    intro texts
    induction texts with
    | nil =>
      intro w before done pending lines h1 h2 h3 h4
      simp only [List.flatMap_nil, List.append_nil] at h4
      rw [areLines_unique h4 h1]
      exact h3.trans (List.sublist_append_left _ _)
    | cons t texts ih =>
      intro w before done pending lines h1 h2 h3 h4
      simp only [List.foldl_cons, List.flatMap_cons] at h4 ⊢
      rw [← List.append_assoc] at h4
      obtain ⟨ls, hls⟩ := lines_of_text t
      obtain ⟨d, left, shown, d1, d2, d3, d4, d5, _⟩ := write_lines can h2 hls
      have hb : AreLines (before ++ (t ++ [lf])) ((done ++ d) ++ left) := by
        have := h1.append hls
        rw [List.append_assoc done d left, ← d1]
        rw [List.append_assoc] at this
        exact this
      have ee : (emit can w t) = (write can w (t ++ [lf])).2 := by
        unfold emit
        by_cases hw : (write can w (t ++ [lf])).1 = true
        · simp only [hw, if_true]
          have hbuf : (write can w (t ++ [lf])).2.buffer = [] := by
            have := d3.1
            rw [(d5 hw).1] at this
            simpa using this
          unfold flush
          rw [hbuf]
          rfl
        · simp only [hw]
          rfl
      rw [ee]
      refine ih _ _ (done ++ d) left lines hb d3 ?_ h4
      rw [d4]
      exact h3.append d2
  exact key texts ⟨[], []⟩ [] [] [] lines areLines_nil areLines_nil (List.Sublist.refl _) (by simpa using hl)

/-! ## Progress bars -/

theorem runAll_restores : ∀ (us : List Use) (s : Bars), (Use.runAll us s).active = s.active ∧ (Use.runAll us s).output = s.output ∧
      (Use.runAll us s).multi = s.multi ∧ s.next ≤ (Use.runAll us s).next
  | [], s => by unfold Use.runAll; exact ⟨rfl, rfl, rfl, Nat.le_refl _⟩
  | u :: us, s => by
    have hu : (Use.run u s).active = s.active ∧ (Use.run u s).output = s.output ∧ (Use.run u s).multi = s.multi ∧
        s.next ≤ (Use.run u s).next := by
      cases u with
      | message t => unfold Use.run; exact ⟨rfl, rfl, rfl, Nat.le_refl _⟩
      | work info inner =>
        have ih := runAll_restores inner (createBar info s).2
        unfold Use.run
        have hc : createBar info s = (⟨none, false⟩, s) ∨ createBar info s = (⟨s.active, true⟩, { s with
            active := some s.next
            next := s.next + 1 }) := by
          unfold createBar
          split
          · exact .inl rfl
          · split
            · exact .inr rfl
            · exact .inl rfl
        rcases hc with hc | hc
        · rw [hc] at ih ⊢
          exact ih
        · rw [hc] at ih ⊢
          exact ⟨rfl, ih.2.1, ih.2.2.1, Nat.le_trans (Nat.le_succ _) ih.2.2.2⟩
    have h := runAll_restores us (Use.run u s)
    unfold Use.runAll
    exact ⟨h.1.trans hu.1, h.2.1.trans hu.2.1, h.2.2.1.trans hu.2.2.1, Nat.le_trans hu.2.2.2 h.2.2.2⟩

/-- **C67**: after any work under progress bars, however nested, the bar that was active before is active again. -/
theorem C67_bars_restored (us : List Use) (s : Bars) : (Use.runAll us s).active = s.active := (runAll_restores us s).1

/-- **C67**: a bar is shown exactly if status output is on, messages of level info are enabled and there is a place for bars; then
the new bar is the active one until it is dropped, and the one that was active before it comes back. Otherwise nothing changes. -/
theorem C67_bar_shown (info : Bool) (s : Bars) :
    (s.output = true ∧ info = true ∧ s.multi = true → (createBar info s).2.active = some s.next ∧
      (dropBar (createBar info s).1 (createBar info s).2).active = s.active) ∧
    (¬ (s.output = true ∧ info = true ∧ s.multi = true) → (createBar info s).2 = s ∧ dropBar (createBar info s).1 s = s) := by
  obtain ⟨o, m, a, n⟩ := s
  cases o <;> cases info <;> cases m <;> simp [createBar, dropBar]

/-- **C67**: the bar of the solver has a positive length, the time limit in milliseconds if there is one; its position is at the
beginning while all of the time is left, and never beyond its end; it is at the end if there is no time left (and
there was a time limit), and it only moves forward while the remaining time shrinks. -/
theorem C67_bar_position (timeout : Int) (remaining : Nat) :
    0 < barLength timeout ∧ (0 < timeout → (barLength timeout : Int) = timeout * 1000) ∧
    (timeout * 1000 ≤ remaining → position timeout remaining = 0) ∧
    position timeout remaining ≤ barLength timeout ∧
    (0 < timeout → position timeout 0 = barLength timeout) ∧
    (∀ later, later ≤ remaining → position timeout remaining ≤ position timeout later) := by
  unfold position barLength timeoutMs
  refine ⟨by omega, fun h => by omega, fun h => by omega, by omega, fun h => by omega, fun later h => by omega⟩

/-- **C67**: the remaining time is what the worker that started last has left, at most the whole time limit (in milliseconds; and
none if every worker has used it up). -/
theorem C67_remaining (timeout : Int) (ht : timeout ≤ 2147483647) (elapsed : List Nat) :
    remainingMs timeout elapsed ≤ timeoutMs timeout ∧
    (∀ e ∈ elapsed, (timeout.toNat * 1000000000 - e) / 1000000 ≤ remainingMs timeout elapsed) ∧
    (elapsed ≠ [] → ∃ e ∈ elapsed, remainingMs timeout elapsed = (timeout.toNat * 1000000000 - e) / 1000000) := by
  have hcap : ∀ e : Nat, min ((timeout.toNat * 1000000000 - e) / 1000000) 9223372036854775807 =
      (timeout.toNat * 1000000000 - e) / 1000000 := by
    intro e
    have : timeout.toNat ≤ 2147483647 := by omega
    omega
  have key : ∀ (l : List Nat) (r : Nat),
      let z := l.foldl (fun r e => max r (min ((timeout.toNat * 1000000000 - e) / 1000000) 9223372036854775807)) r
      r ≤ z ∧ (∀ e ∈ l, (timeout.toNat * 1000000000 - e) / 1000000 ≤ z) ∧
        (z = r ∨ ∃ e ∈ l, z = (timeout.toNat * 1000000000 - e) / 1000000) := by
    intro l
    induction l with
    | nil => intro r; exact ⟨Nat.le_refl _, fun e h => (by cases h), .inl rfl⟩
    | cons x l ih =>
      intro r
      simp only [List.foldl_cons]
      rw [hcap]
      obtain ⟨h1, h2, h3⟩ := ih (max r ((timeout.toNat * 1000000000 - x) / 1000000))
      refine ⟨by omega, ?_, ?_⟩
      · intro e he
        rcases List.mem_cons.1 he with he | he
        · subst he; omega
        · exact h2 e he
      · rcases h3 with h3 | ⟨e, he, h3⟩
        · rcases Nat.le_total r ((timeout.toNat * 1000000000 - x) / 1000000) with h | h
          · exact .inr ⟨x, List.mem_cons_self, by rw [h3]; omega⟩
          · exact .inl (by rw [h3]; omega)
        · exact .inr ⟨e, List.mem_cons_of_mem _ he, h3⟩
  obtain ⟨h1, h2, h3⟩ := key elapsed 0
  refine ⟨?_, h2, ?_⟩
  · unfold remainingMs timeoutMs
    rcases h3 with h3 | ⟨e, _, h3⟩
    · rw [h3]; omega
    · rw [h3]; omega
  · intro hne
    unfold remainingMs
    rcases h3 with h3 | h3
    · cases elapsed with
      | nil => exact absurd rfl hne
      | cons e l =>
        refine ⟨e, List.mem_cons_self, ?_⟩
        have := h2 e List.mem_cons_self
        rw [h3] at this ⊢
        omega
    · exact h3

/-! ## The summary -/

/-- **C67**: when the session is over and its events have arrived (as in `C22_final_report`), the summary says "No solution found."
exactly if the result is Invalid, and otherwise shows the score of the very solution that is returned and the numbers of
iterations, assignments and LPs of all workers. -/
theorem C67_summary_is_true (cfg : Setup σ τ ρ) (Inv : Nat → τ → Prop) (InvR : Nat → ρ → Prop) (hS : SetupWF cfg Inv InvR)
    (hc : ∀ tid, CountsUp (cfg.env tid).asolve (cfg.env tid).lpOf)
    (hinit : ∀ tid, (cfg.init tid).hill.count = 0 ∧ (cfg.init tid).hill.events = [] ∧ (cfg.env tid).lpOf (cfg.init tid).hill.asg = 0)
    (g : Session σ τ ρ) (hr : Run cfg (start cfg) g)
    (hok : ∀ w ∈ g.workers, w.phase ≠ .panicked) (past : List (List Event)) (batch : List Event)
    (hall : ∀ (tid : Nat) (w : Worker σ τ ρ), g.workers[tid]? = some w →
      announced ((past.flatten ++ batch).filter (fun e => decide (e.worker = tid))) = announced w.st.hill.events ∧
      ((past.flatten ++ batch).filter (fun e => decide (e.worker = tid))).filterMap (·.iterations) =
        w.st.hill.events.filterMap (·.iterations) ∧
      ((past.flatten ++ batch).filter (fun e => decide (e.worker = tid))).filterMap (·.assignments) =
        w.st.hill.events.filterMap (·.assignments) ∧
      ((past.flatten ++ batch).filter (fun e => decide (e.worker = tid))).filterMap (·.lp) = w.st.hill.events.filterMap (·.lp)) :
    ∃ sol summary, track cfg g past batch = .ok (sol, summary) ∧ Threaded.wait g = .ok sol ∧
      ((sol = .invalid ∧ summary = .noSolution) ∨
       ∃ s a sc, sol = .complete s a ∧ cfg.problem.scoring.evaluate cfg.problem.input sol = .ok sc ∧
        summary = .solved (some ⟨sc, (g.workers.map (·.st.progress.iterations)).sum, (g.workers.map (·.st.hill.count)).sum,
          ((List.range g.workers.length).map (fun tid =>
            (g.workers[tid]?).elim 0 (fun w => (cfg.env tid).lpOf w.st.hill.asg))).sum⟩)) := by
  obtain ⟨h1, h2, h3⟩ := C22_final_report cfg Inv InvR hS g hr hok past batch (fun tid w hw => ⟨(hall tid w hw).1, (hall tid w hw).2.1⟩)
  have h4 := C22_final_assignments cfg Inv InvR hS g hr (fun tid => (hinit tid).1) past batch (fun tid w hw => (hall tid w hw).2.2.1)
  have h5 := C22_final_lps cfg hc (fun tid => (hinit tid).2) g hr past batch (fun tid w hw => (hall tid w hw).2.2.2)
  simp only at h1 h2 h3 h4 h5
  unfold track
  simp only
  generalize (poll (past.foldl (fun tp b => (poll tp b).2) (freshProgress (workerCount cfg))) batch).1 = r at h1 h2 h3 h4 h5 ⊢
  rw [h1]
  refine ⟨r.bestSolution, summaryOf r.bestSolution r, rfl, rfl, ?_⟩
  rcases h3 with ⟨e, _⟩ | ⟨hm, hf, _⟩
  · left
    have : r.bestSolution = .invalid := congrArg Prod.fst e
    rw [this]
    exact ⟨rfl, rfl⟩
  · right
    obtain ⟨w, hw, e⟩ := List.mem_map.1 hm
    obtain ⟨tid, hlt, he⟩ := List.mem_iff_getElem.1 hw
    have hg : g.workers[tid]? = some w := by rw [List.getElem?_eq_getElem hlt, he]
    have hsok := run_ok hS (start_ok hS) hr
    obtain ⟨k, seen, evs, hwk⟩ := (hsok.ok tid w hg).worked
    have hb : IsBest seen w.st.best := by
      rw [hwk.best, (init_mode hS (by rw [← hsok.count]; exact hlt)).1]
      simpa using isBest_foldl seen [] (by simpa using hwk.mode) isBest_nil
    have e' : w.st.best = (r.bestSolution, r.bestScore) := e
    have hf : r.bestScore.isFinite = true := hf
    have hgood : Hill.Good cfg.problem (Placed cfg.problem.input) w.st.best := by
      have habs : w.st.best ≠ (.invalid, Score.infinite) := by
        intro h
        rw [e'] at h
        have h' : r.bestScore = Score.infinite := congrArg Prod.snd h
        rw [h'] at hf
        exact absurd hf (by decide)
      rcases hb with ⟨e, _⟩ | ⟨hm, _⟩
      · exact absurd e habs
      · rcases hwk.sound _ hm with e | hgd
        · exact absurd e habs
        · exact hgd
    rw [e'] at hgood
    obtain ⟨s, a, hs, _⟩ := hgood.whole
    have hs : r.bestSolution = .complete s a := hs
    refine ⟨s, a, r.bestScore, hs, hgood.eval, ?_⟩
    rw [hs]
    show Summary.solved (shownOf r) = _
    unfold shownOf
    rw [if_pos hf, h2, h4, h5]

/-- **C67**: the same for every session of the program on an input it has accepted. -/
theorem C67_program_summary (o : Main.Outside F σ) {raw : Raw} {tr : List Reader.Event} (hd : Describes tr raw) {d : InputData}
    (hbd : Build.build raw = .ok d) (hrng : o.rng.Lawful) {p : Main.Prepared} {eff : Opts F} (hp : Main.prepare o d eff = .ok p)
    (g : Session σ ASolver (σ × Nat)) (hr : Run (Main.setup o p eff) (start (Main.setup o p eff)) g)
    (hok : ∀ w ∈ g.workers, w.phase ≠ .panicked) (past : List (List Event)) (batch : List Event)
    (hall : ∀ (tid : Nat) (w : Worker σ ASolver (σ × Nat)), g.workers[tid]? = some w →
      (past.flatten ++ batch).filter (fun e => decide (e.worker = tid)) = w.st.hill.events) :
    ∃ sol summary, track (Main.setup o p eff) g past batch = .ok (sol, summary) ∧ Threaded.wait g = .ok sol ∧
      ((sol = .invalid ∧ summary = .noSolution) ∨
       ∃ s a sc, sol = .complete s a ∧ (Main.setup o p eff).problem.scoring.evaluate d sol = .ok sc ∧
        summary = .solved (some ⟨sc, (g.workers.map (·.st.progress.iterations)).sum, (g.workers.map (·.st.hill.count)).sum,
          (g.workers.map (·.st.hill.asg.lpCount)).sum⟩)) := by
  obtain ⟨hin, hS⟩ := setup_wf hd hbd hrng hp
  have h := C67_summary_is_true _ _ _ hS (setup_countsUp o p eff).1 (fun tid => ⟨rfl, (setup_countsUp o p eff).2 tid⟩) g hr hok past batch
    (fun tid w hw => by rw [hall tid w hw]; exact ⟨rfl, rfl, rfl, rfl⟩)
  have e : ((List.range g.workers.length).map (fun tid =>
      (g.workers[tid]?).elim 0 (fun w => ((Main.setup o p eff).env tid).lpOf w.st.hill.asg))) =
      g.workers.map (·.st.hill.asg.lpCount) := by
    apply List.ext_getElem
    · simp
    · intro n h1 h2
      have : n < g.workers.length := by simpa using h2
      rw [List.getElem_map, List.getElem_map, List.getElem_range, List.getElem?_eq_getElem this]
      rfl
  rw [e] at h
  subst hin
  exact h

/-- **C67**: a panic of a worker is reported as an error, and no summary is shown. -/
theorem C67_panic (cfg : Setup σ τ ρ) (g : Session σ τ ρ) (past : List (List Event)) (batch : List Event)
    (h : ∃ w ∈ g.workers, w.phase = .panicked) : track cfg g past batch = .error (.error "WorkerPanic") := by
  unfold track
  simp only [C21_panic_reported g h]

namespace StatusEx

/-- "a", line feed, "bc" and a message without text, in odd pieces. -/
example : (([[97], [], [10, 98], [99, 10, 10], [100]] : List (List UInt8)).foldl (fun w p => (write (fun _ _ => true) w p).2) ⟨[], []⟩) =
    ⟨[100], [[97], [98, 99], []]⟩ := by decide +kernel

/-- The second line cannot be printed; the third one is printed with the next message. -/
example : (([[97, 10, 98, 10, 99], [100]] : List (List UInt8)).foldl (emit (fun _ l => l != [98])) ⟨[], []⟩) =
    ⟨[], [[97], [99], [100]]⟩ := by decide +kernel

example : AreLines [97, 10, 98, 99, 10] [[97], [98, 99]] := ⟨rfl, by decide⟩

/-- Nested bars. -/
example : (Use.runAll [.work true [.message [], .work true [.message []], .work false []], .message []] ⟨true, true, some 3, 7⟩) =
    ⟨true, true, some 3, 9⟩ := by
  simp [Use.runAll, Use.run, createBar, dropBar]

example : remainingMs 5 [1200000, 4999999999, 7000000000] = 4998 ∧ position 5 4998 = 2 ∧ barLength 5 = 5000 ∧
    position (-1) 0 = 0 ∧ barLength (-1) = 1 := by decide +kernel

open ThEx in
/-- The session of `ThEx`: all events arrive in two polls, and the summary shows the score of the solution. -/
theorem summary_hyps : let evs := (final false).workers.flatMap (fun w => w.st.hill.events)
    (∀ w ∈ (final false).workers, w.phase ≠ .panicked) ∧
    ∀ (tid : Nat) (w : Worker Nat Unit Nat), (final false).workers[tid]? = some w →
      announced (([evs.take 3].flatten ++ evs.drop 3).filter (fun e => decide (e.worker = tid))) = announced w.st.hill.events ∧
      (([evs.take 3].flatten ++ evs.drop 3).filter (fun e => decide (e.worker = tid))).filterMap (·.iterations) =
        w.st.hill.events.filterMap (·.iterations) ∧
      (([evs.take 3].flatten ++ evs.drop 3).filter (fun e => decide (e.worker = tid))).filterMap (·.assignments) =
        w.st.hill.events.filterMap (·.assignments) ∧
      (([evs.take 3].flatten ++ evs.drop 3).filter (fun e => decide (e.worker = tid))).filterMap (·.lp) =
        w.st.hill.events.filterMap (·.lp) := by
  intro evs
  have hev : evs = (final false).workers.flatMap (fun w => w.st.hill.events) := rfl
  refine ⟨?_, ?_⟩
  · have h : (final false).workers.map (fun w => w.phase) = [.finished, .finished] := by decide +kernel
    intro w hw e
    have : w.phase ∈ (final false).workers.map (fun w => w.phase) := List.mem_map.2 ⟨w, hw, rfl⟩
    rw [h, e] at this
    simp at this
  · have hsplit : [evs.take 3].flatten ++ evs.drop 3 = evs := by simp
    rw [hsplit]
    have hw : ∀ (tid : Nat) (w : Worker Nat Unit Nat), (final false).workers[tid]? = some w → ∀ e ∈ w.st.hill.events, e.worker = tid := by
      intro tid w hw e he
      obtain ⟨k, seen, es, hwk⟩ := ((run_ok (setup_ok false) (start_ok (setup_ok false)) (exec_run _ _ _)).ok tid w hw).worked
      rw [hwk.events] at he
      rcases List.mem_append.1 he with he | he
      · exact absurd he (by simp [cfg, Shotgun.new])
      · exact hwk.worker e he
    have hlen : (final false).workers.length = 2 := by decide +kernel
    have h2 : ∃ u v, (final false).workers = [u, v] := by
      match h : (final false).workers, hlen with
      | [u, v], _ => exact ⟨u, v, rfl⟩
    obtain ⟨u, v, huv⟩ := h2
    have hu := hw 0 u (by rw [huv]; rfl)
    have hv := hw 1 v (by rw [huv]; rfl)
    have e0 : evs.filter (fun e => decide (e.worker = 0)) = u.st.hill.events := by
      rw [hev, huv]
      simp only [List.flatMap_cons, List.flatMap_nil, List.append_nil, List.filter_append]
      rw [List.filter_eq_self.2 (fun e he => decide_eq_true (hu e he)),
        List.filter_eq_nil_iff.2 (fun e he h => by rw [hv e he] at h; simp at h), List.append_nil]
    have e1 : evs.filter (fun e => decide (e.worker = 1)) = v.st.hill.events := by
      rw [hev, huv]
      simp only [List.flatMap_cons, List.flatMap_nil, List.append_nil, List.filter_append]
      rw [List.filter_eq_self.2 (fun e he => decide_eq_true (hv e he)),
        List.filter_eq_nil_iff.2 (fun e he h => by rw [hu e he] at h; simp at h), List.nil_append]
    intro tid w hg
    rw [huv] at hg
    match tid with
    | 0 => cases hg; rw [e0]; exact ⟨rfl, rfl, rfl, rfl⟩
    | 1 => cases hg; rw [e1]; exact ⟨rfl, rfl, rfl, rfl⟩
    | n + 2 => cases hg

open ThEx in
/-- The conclusion of `C67_summary_is_true` for this session: three iterations are shown, with a score. -/
example : let evs := (final false).workers.flatMap (fun w => w.st.hill.events)
    ((track (cfg false) (final false) [evs.take 3] (evs.drop 3)).toOption.map (fun r => match r.2 with
      | .solved (some x) => (x.iterations, x.score.isFinite)
      | _ => (0, false))) = some (3, true) := by decide +kernel

end StatusEx

end Wassign
