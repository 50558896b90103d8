import Mathlib.Data.List.Basic
import Mathlib.Data.List.Infix
import Mathlib.Tactic.Common
import Verif.Model.IO

set_option linter.unusedSimpArgs false

/-! # Lemmas about texts: strip, split, lines -/

namespace BP

def lstrip (s : Text) : Text := s.dropWhile isWs
def rstrip (s : Text) : Text := (s.reverse.dropWhile isWs).reverse

theorem strip_eq (s : Text) : strip s = rstrip (lstrip s) := rfl

theorem lstrip_append_cons (a b : Text) (x : Char) (hx : isWs x = false) :
    lstrip (a ++ x :: b) = lstrip a ++ x :: b := by
  unfold lstrip
  induction a with
  | nil => simp [List.dropWhile_cons, hx]
  | cons y a ih =>
    simp only [List.cons_append, List.dropWhile_cons]
    split
    · exact ih
    · rfl

theorem rstrip_append_cons (a b : Text) (x : Char) (hx : isWs x = false) :
    rstrip (a ++ x :: b) = a ++ x :: rstrip b := by
  unfold rstrip
  have := lstrip_append_cons b.reverse a.reverse x hx
  unfold lstrip at this
  rw [List.reverse_append, List.reverse_cons, List.append_assoc, List.singleton_append, this]
  simp

theorem strip_append_cons (a b : Text) (x : Char) (hx : isWs x = false) :
    strip (a ++ x :: b) = lstrip a ++ x :: rstrip b := by
  rw [strip_eq, lstrip_append_cons _ _ _ hx, rstrip_append_cons _ _ _ hx]

theorem lstrip_decomp (s : Text) : ∃ w, s = w ++ lstrip s ∧ ∀ c ∈ w, isWs c = true :=
  ⟨s.takeWhile isWs, (List.takeWhile_append_dropWhile).symm, fun c hc => by
    induction s with
    | nil => simp at hc
    | cons x s ih =>
      rw [List.takeWhile_cons] at hc
      split at hc
      · rename_i hx
        rcases List.mem_cons.1 hc with rfl | hc
        · exact hx
        · exact ih hc
      · simp at hc⟩

theorem rstrip_decomp (s : Text) : ∃ w, s = rstrip s ++ w ∧ ∀ c ∈ w, isWs c = true := by
  obtain ⟨w, h1, h2⟩ := lstrip_decomp s.reverse
  refine ⟨w.reverse, ?_, fun c hc => h2 c (by simpa using hc)⟩
  have := congrArg List.reverse h1
  rw [List.reverse_reverse, List.reverse_append] at this
  exact this

theorem lstrip_ws_append (w s : Text) (h : ∀ c ∈ w, isWs c = true) : lstrip (w ++ s) = lstrip s := by
  induction w with
  | nil => rfl
  | cons x w ih =>
    have hx := h x (by simp)
    unfold lstrip at *
    rw [List.cons_append, List.dropWhile_cons, if_pos hx]
    exact ih fun c hc => h c (List.mem_cons_of_mem _ hc)

theorem rstrip_append_ws (w s : Text) (h : ∀ c ∈ w, isWs c = true) : rstrip (s ++ w) = rstrip s := by
  unfold rstrip
  rw [List.reverse_append]
  have := lstrip_ws_append w.reverse s.reverse fun c hc => h c (by simpa using hc)
  unfold lstrip at this
  rw [this]

theorem lstrip_idem (s : Text) : lstrip (lstrip s) = lstrip s := by
  obtain ⟨w, h1, h2⟩ := lstrip_decomp s
  have := lstrip_ws_append w (lstrip s) h2
  rw [← h1] at this
  exact this.symm

theorem rstrip_idem (s : Text) : rstrip (rstrip s) = rstrip s := by
  obtain ⟨w, h1, h2⟩ := rstrip_decomp s
  have := rstrip_append_ws w (rstrip s) h2
  rw [← h1] at this
  exact this.symm

theorem strip_lstrip (s : Text) : strip (lstrip s) = strip s := by
  rw [strip_eq, strip_eq, lstrip_idem]

theorem lstrip_rstrip_comm (s : Text) : lstrip (rstrip s) = rstrip (lstrip s) := by
  by_cases h : ∃ a x b, s = a ++ x :: b ∧ isWs x = false
  · obtain ⟨a, x, b, rfl, hx⟩ := h
    rw [rstrip_append_cons _ _ _ hx, lstrip_append_cons _ _ _ hx, lstrip_append_cons _ _ _ hx,
      rstrip_append_cons _ _ _ hx]
  · have hall : ∀ c ∈ s, isWs c = true := by
      intro c hc
      by_contra hn
      apply h
      obtain ⟨a, b, rfl⟩ := List.append_of_mem hc
      exact ⟨a, c, b, rfl, by simpa using hn⟩
    have h1 : lstrip s = [] := by
      have := lstrip_ws_append s [] hall
      simpa [lstrip] using this
    have h2 : rstrip s = [] := by
      have := rstrip_append_ws s [] hall
      simpa [rstrip] using this
    rw [h1, h2]; rfl

theorem strip_rstrip (s : Text) : strip (rstrip s) = strip s := by
  rw [strip_eq, strip_eq, lstrip_rstrip_comm, rstrip_idem]

theorem strip_ws_append (w s : Text) (h : ∀ c ∈ w, isWs c = true) : strip (w ++ s) = strip s := by
  rw [strip_eq, strip_eq, lstrip_ws_append _ _ h]

theorem strip_append_ws (w s : Text) (h : ∀ c ∈ w, isWs c = true) : strip (s ++ w) = strip s := by
  rw [← strip_rstrip (s ++ w), rstrip_append_ws _ _ h, strip_rstrip]

theorem mem_lstrip {s : Text} {c : Char} (h : c ∈ lstrip s) : c ∈ s := by
  obtain ⟨w, h1, _⟩ := lstrip_decomp s
  rw [h1]; simp [h]

theorem mem_rstrip {s : Text} {c : Char} (h : c ∈ rstrip s) : c ∈ s := by
  obtain ⟨w, h1, _⟩ := rstrip_decomp s
  rw [h1]; simp [h]

theorem mem_strip {s : Text} {c : Char} (h : c ∈ strip s) : c ∈ s := mem_lstrip (mem_rstrip h)

/-! ## split -/

theorem splitOn_not_mem (c : Char) (s : Text) (h : c ∉ s) : splitOn c s = [s] := by
  induction s with
  | nil => rfl
  | cons x s ih =>
    rw [splitOn, ih fun hc => h (List.mem_cons_of_mem _ hc), if_neg]
    intro e; exact h (by simp [e])

theorem splitOn_append (c : Char) (a b : Text) (h : c ∉ a) :
    splitOn c (a ++ c :: b) = a :: splitOn c b := by
  induction a with
  | nil => simp [splitOn]
  | cons x a ih =>
    rw [List.cons_append, splitOn, ih fun hc => h (List.mem_cons_of_mem _ hc), if_neg]
    intro e; exact h (by simp [e])

theorem splitOn_ne_nil (c : Char) (s : Text) : splitOn c s ≠ [] := by
  cases s with
  | nil => simp [splitOn]
  | cons x s =>
    rw [splitOn]
    split
    · simp
    · split <;> simp

theorem splitOn_head (c : Char) (s : Text) :
    (splitOn c s).headD [] = s.takeWhile fun x => decide (x ≠ c) := by
  induction s with
  | nil => rfl
  | cons x s ih =>
    rw [splitOn]
    by_cases h : x = c
    · simp [h]
    · rw [if_neg h]
      cases hs : splitOn c s with
      | nil => exact absurd hs (splitOn_ne_nil c s)
      | cons p ps => rw [hs] at ih; simp [List.takeWhile_cons, h] at ih ⊢; exact ih

/-- Joining with the separator and splitting again. -/
theorem splitOn_join (c : Char) (ws : List Text) (h0 : ws ≠ []) (h : ∀ w ∈ ws, c ∉ w) :
    splitOn c ((ws.intersperse [c]).flatten) = ws := by
  induction ws with
  | nil => exact absurd rfl h0
  | cons w ws ih =>
    cases ws with
    | nil => simp; exact splitOn_not_mem c w (h w (by simp))
    | cons w2 ws =>
      have hr := ih (by simp) fun x hx => h x (List.mem_cons_of_mem _ hx)
      rw [List.intersperse_cons_cons, List.flatten_cons, List.flatten_cons, List.singleton_append,
        splitOn_append _ _ _ (h w (by simp)), hr]

/-! ## lines -/

theorem textLines_append (a b : Text) (h : '\n' ∉ a) :
    textLines (a ++ '\n' :: b) = (a ++ ['\n']) :: textLines b := by
  induction a with
  | nil => simp [textLines]
  | cons x a ih =>
    rw [List.cons_append, textLines, ih fun hc => h (List.mem_cons_of_mem _ hc), if_neg]
    · rfl
    · intro e; exact h (by simp [e])

theorem textLines_flatten (s : Text) : (textLines s).flatten = s := by
  induction s with
  | nil => rfl
  | cons x s ih =>
    rw [textLines]
    split
    · rename_i hx; simp [ih, hx]
    · split
      · rename_i hs; rw [hs] at ih; simp at ih; simp [← ih]
      · rename_i l ls hs; rw [hs] at ih; simp only [List.flatten_cons] at ih ⊢; rw [List.cons_append, ih]

/-- A complete line: one newline, at the end. -/
def FullLine (l : Text) : Prop := ∃ a, l = a ++ ['\n'] ∧ '\n' ∉ a

theorem textLines_full (ls : List Text) (h : ∀ l ∈ ls, FullLine l) (rest : Text) :
    textLines (ls.flatten ++ rest) = ls ++ textLines rest := by
  induction ls with
  | nil => rfl
  | cons l ls ih =>
    obtain ⟨a, rfl, ha⟩ := h l (by simp)
    rw [List.flatten_cons, List.append_assoc, List.append_assoc, List.singleton_append,
      textLines_append _ _ ha, ih fun x hx => h x (List.mem_cons_of_mem _ hx)]
    rfl

/-- Every line of a text that is empty or ends in a newline is complete. -/
theorem fullLine_of_mem (s : Text) (h : s = [] ∨ s.getLast? = some '\n') :
    ∀ l ∈ textLines s, FullLine l := by
  induction s with
  | nil => simp [textLines]
  | cons x s ih =>
    have hs : s = [] ∨ s.getLast? = some '\n' := by
      cases s with
      | nil => simp
      | cons y s => right; simpa using h
    have ih := ih hs
    intro l hl
    rw [textLines] at hl
    split at hl
    · rename_i hx
      rcases List.mem_cons.1 hl with rfl | hl
      · exact ⟨[], rfl, by simp⟩
      · exact ih l hl
    · rename_i hx
      split at hl
      · rename_i hn
        have : s = [] := by rw [← textLines_flatten s, hn]; rfl
        subst this
        simp at h
        exact absurd h hx
      · rename_i l0 ls hls
        rcases List.mem_cons.1 hl with rfl | hl
        · obtain ⟨a, ha, hna⟩ := ih l0 (by rw [hls]; simp)
          exact ⟨x :: a, by rw [ha]; rfl, by
            simp only [List.mem_cons, not_or]; exact ⟨fun e => hx e.symm, hna⟩⟩
        · exact ih l (by rw [hls]; exact List.mem_cons_of_mem _ hl)

/-! ## the plus-minus sign -/

theorem hasPM_iff (u : Text) : hasPM u = true ↔ ['+', '/', '-'] <:+: u := by
  simp [hasPM]

theorem hasPM_append_ws (u w : Text) (h : ∀ c ∈ w, isWs c = true) : hasPM (u ++ w) = hasPM u := by
  rw [Bool.eq_iff_iff, hasPM_iff, hasPM_iff]
  constructor
  · rintro ⟨s1, s2, hs⟩
    rw [List.append_eq_append_iff] at hs
    rcases hs with ⟨a', h1, h2⟩ | ⟨c', h1, h2⟩
    · exact ⟨s1, a', h1.symm⟩
    · rcases List.eq_nil_or_concat c' with rfl | ⟨c0, x, hcx⟩
      · rw [List.append_nil] at h1; exact ⟨s1, [], by rw [List.append_nil, h1]⟩
      · rw [List.concat_eq_append] at hcx
        subst hcx
        have e : (s1 ++ ['+', '/', '-']).getLast? = (u ++ (c0 ++ [x])).getLast? := by rw [h1]
        have hx : x = '-' := by
          rw [← List.append_assoc, List.getLast?_append, List.getLast?_append] at e
          simp at e
          exact e.symm
        have := h x (by rw [h2]; simp)
        rw [hx] at this
        simp [isWs] at this
  · rintro ⟨s1, s2, hs⟩
    exact ⟨s1, s2 ++ w, by rw [← List.append_assoc, hs]⟩

theorem hasPM_ws_cons (c : Char) (u : Text) (h : isWs c = true) : hasPM (c :: u) = hasPM u := by
  rw [Bool.eq_iff_iff, hasPM_iff, hasPM_iff, List.infix_cons_iff]
  constructor
  · rintro (hp | hi)
    · have : c = '+' := by
        obtain ⟨t, ht⟩ := hp
        simp at ht; exact ht.1.symm
      rw [this] at h; simp [isWs] at h
    · exact hi
  · exact Or.inr

theorem hasPM_ws_append (w u : Text) (h : ∀ c ∈ w, isWs c = true) : hasPM (w ++ u) = hasPM u := by
  induction w with
  | nil => rfl
  | cons c w ih =>
    rw [List.cons_append, hasPM_ws_cons _ _ (h c (by simp)),
      ih fun x hx => h x (List.mem_cons_of_mem _ hx)]

theorem hasPM_rstrip (u : Text) : hasPM (rstrip u) = hasPM u := by
  obtain ⟨w, h1, h2⟩ := rstrip_decomp u
  conv_rhs => rw [h1]
  exact (hasPM_append_ws _ _ h2).symm

theorem hasPM_strip (u : Text) : hasPM (strip u) = hasPM u := by
  rw [strip_eq, hasPM_rstrip]
  obtain ⟨w, h1, h2⟩ := lstrip_decomp u
  conv_rhs => rw [h1]
  exact (hasPM_ws_append _ _ h2).symm

end BP
