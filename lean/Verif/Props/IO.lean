import Mathlib.Tactic.Ring
import Mathlib.Tactic.NormNum
import Verif.Lemmas.Text

set_option linter.unusedSimpArgs false

/-!
# C36, C44-C49, C78: parameter files and file names
-/

namespace BP

/-! ## The meaning of one line -/

/-- What the documentation says about the right-hand side: comma separated values, with or
without uncertainties, averaged. -/
def Spec.value {V : Type} (io : NumIO V) (text : Text) : Except PyErr V :=
  match (splitOn ',' (strip text)).mapM (if hasPM text then io.parseU else io.parseF) with
  | .error e => .error e
  | .ok vs => .ok (io.mean vs)

/-- A documented line: a comment, or `key = value` with an optional trailing comment. -/
inductive Spec.ParLine where
  | comment (text : Text)
  | assign (key value : Text) (remark : Option Text)

/-- The characters of the line, without the line terminator. -/
def Spec.ParLine.render : Spec.ParLine → Text
  | .comment t => '#' :: t
  | .assign k v none => k ++ '=' :: v
  | .assign k v (some r) => k ++ '=' :: v ++ '#' :: r

/-- No stray separators, no newline. -/
def Spec.ParLine.WF : Spec.ParLine → Prop
  | .comment t => '\n' ∉ t
  | .assign k v r => (∀ c ∈ k ++ v, c ≠ '=' ∧ c ≠ '#' ∧ c ≠ '\n') ∧ ∀ t, r = some t → '\n' ∉ t

theorem loadLine_comment {V : Type} (io : NumIO V) (acc : Dict V) (t : Text) :
    loadLine io acc ('#' :: t) = .ok acc := by simp [loadLine]

theorem loadLine_assign {V : Type} (io : NumIO V) (acc : Dict V) (k v tail : Text)
    (hk : '=' ∉ k ∧ '#' ∉ k) (hv : '=' ∉ v ∧ '#' ∉ v) (ht : tail = [] ∨ tail.head? = some '#') :
    loadLine io acc (k ++ '=' :: (v ++ tail)) =
      match Spec.value io v with
      | .error e => .error e
      | .ok x => .ok (Dict.set acc (String.ofList (strip k)) x) := by
  have hhead : ¬ (k ++ '=' :: (v ++ tail)).head? = some '#' := by
    cases k with
    | nil => simp
    | cons x k =>
      simp only [List.cons_append, List.head?_cons, Option.some.injEq]
      intro e; exact hk.2 (by simp [e])
  have hne : isWs '=' = false := by decide
  -- the part before the remark
  have hbody : ∃ v', splitOn '=' ((splitOn '#' (strip (k ++ '=' :: (v ++ tail)))).headD []) = [lstrip k, v']
      ∧ strip v' = strip v ∧ hasPM v' = hasPM v := by
    rw [strip_append_cons _ _ _ hne]
    have hlk : '=' ∉ lstrip k := fun h => hk.1 (mem_lstrip h)
    have hlk2 : '#' ∉ lstrip k := fun h => hk.2 (mem_lstrip h)
    rcases ht with rfl | ht
    · refine ⟨rstrip v, ?_, strip_rstrip v, hasPM_rstrip v⟩
      have h1 : '#' ∉ lstrip k ++ '=' :: rstrip (v ++ []) := by
        simp only [List.append_nil, List.mem_append, List.mem_cons, not_or]
        exact ⟨hlk2, by decide, fun h => hv.2 (mem_rstrip h)⟩
      rw [splitOn_not_mem _ _ h1, List.headD_cons, splitOn_append _ _ _ hlk, List.append_nil,
        splitOn_not_mem]
      exact fun h => hv.1 (mem_rstrip h)
    · refine ⟨v, ?_, rfl, rfl⟩
      obtain ⟨r, rfl⟩ : ∃ r, tail = '#' :: r := by
        cases tail with
        | nil => simp at ht
        | cons x r => simp at ht; exact ⟨r, by rw [ht]⟩
      have hne2 : isWs '#' = false := by decide
      rw [rstrip_append_cons _ _ _ hne2, ← List.cons_append, ← List.append_assoc,
        splitOn_append '#', List.headD_cons, splitOn_append _ _ _ hlk, splitOn_not_mem _ _ hv.1]
      simp only [List.mem_append, List.mem_cons, not_or]
      exact ⟨hlk2, by decide, hv.2⟩
  obtain ⟨v', h1, h2, h3⟩ := hbody
  unfold loadLine Spec.value
  rw [if_neg hhead]
  simp only [h1, List.getElem?_cons_succ, List.getElem?_cons_zero, h2, h3, List.headD_cons, strip_lstrip]
  cases List.mapM (if hasPM v = true then io.parseU else io.parseF) (splitOn ',' (strip v)) <;> rfl

/-- The effect of a documented line. -/
def Spec.ParLine.meaning {V : Type} (io : NumIO V) : Spec.ParLine → Except PyErr (Option (String × V))
  | .comment _ => .ok none
  | .assign k v _ => match Spec.value io v with
    | .error e => .error e
    | .ok x => .ok (some (String.ofList (strip k), x))

theorem loadLine_render {V : Type} (io : NumIO V) (acc : Dict V) (l : Spec.ParLine) (h : l.WF) :
    loadLine io acc (l.render ++ ['\n']) =
      match l.meaning io with
      | .error e => .error e
      | .ok none => .ok acc
      | .ok (some kv) => .ok (Dict.set acc kv.1 kv.2) := by
  cases l with
  | comment t => exact loadLine_comment io acc _
  | assign k v r =>
    obtain ⟨h1, h2⟩ := h
    have hk : '=' ∉ k ∧ '#' ∉ k := ⟨fun hm => (h1 _ (by simp [hm])).1 rfl, fun hm => (h1 _ (by simp [hm])).2.1 rfl⟩
    have hv : '=' ∉ v ∧ '#' ∉ v := ⟨fun hm => (h1 _ (by simp [hm])).1 rfl, fun hm => (h1 _ (by simp [hm])).2.1 rfl⟩
    have hval : Spec.value io (v ++ ['\n']) = Spec.value io v := by
      have hw : ∀ c ∈ ['\n'], isWs c = true := by simp [isWs]
      unfold Spec.value
      rw [strip_append_ws _ _ hw, hasPM_append_ws _ _ hw]
    cases r with
    | none =>
      have hv' : '=' ∉ v ++ ['\n'] ∧ '#' ∉ v ++ ['\n'] := by simp [hv]
      have := loadLine_assign io acc k (v ++ ['\n']) [] hk hv' (Or.inl rfl)
      rw [List.append_nil] at this
      simp only [Spec.ParLine.render, Spec.ParLine.meaning, List.append_assoc, List.cons_append]
      rw [this, hval]
      cases Spec.value io v <;> rfl
    | some r =>
      have := loadLine_assign io acc k v ('#' :: (r ++ ['\n'])) hk hv (Or.inr rfl)
      simp only [Spec.ParLine.render, Spec.ParLine.meaning, List.append_assoc, List.cons_append]
      rw [this]
      cases Spec.value io v <;> rfl

theorem render_no_newline (l : Spec.ParLine) (h : l.WF) : '\n' ∉ l.render := by
  cases l with
  | comment t =>
    simp only [Spec.ParLine.render, List.mem_cons, not_or]
    exact ⟨by decide, h⟩
  | assign k v r =>
    obtain ⟨h1, h2⟩ := h
    have hk : '\n' ∉ k := fun hm => (h1 _ (by simp [hm])).2.2 rfl
    have hv : '\n' ∉ v := fun hm => (h1 _ (by simp [hm])).2.2 rfl
    cases r with
    | none => simp [Spec.ParLine.render, hk, hv]
    | some r => simp [Spec.ParLine.render, hk, hv, h2 r rfl]

/-- A file made of documented lines. -/
def Spec.parFile (ls : List Spec.ParLine) : Text := (ls.map fun l => l.render ++ ['\n']).flatten

/-- The last value a list of meanings gives to a key. -/
def Spec.lastValue {V : Type} (kvs : List (Option (String × V))) (k : String) : Option V :=
  kvs.foldl (fun acc o => match o with
    | some (k', v) => if k' = k then some v else acc
    | none => acc) none

theorem lastValue_append {V : Type} (kvs : List (Option (String × V))) (o : Option (String × V)) (k : String) :
    Spec.lastValue (kvs ++ [o]) k = (match o with
      | some (k', v) => if k' = k then some v else Spec.lastValue kvs k
      | none => Spec.lastValue kvs k) := by
  unfold Spec.lastValue
  rw [List.foldl_append]
  rfl

/-- **C45.** A file of documented lines whose values parse loads to the dictionary that maps
each key to the value of the last line with that key; comments are skipped; values separated
by commas are averaged; every key occurs once. -/
theorem C45_load_documented {V : Type} (io : NumIO V) (ls : List Spec.ParLine)
    (kvs : List (Option (String × V))) (hwf : ∀ l ∈ ls, l.WF)
    (hm : ls.map (fun l => l.meaning io) = kvs.map .ok) :
    ∃ d, loadText io (Spec.parFile ls) = .ok d ∧ d.keys.Nodup ∧
      ∀ k, d.find? k = Spec.lastValue kvs k := by
  have hlines : textLines (Spec.parFile ls) = ls.map fun l => l.render ++ ['\n'] := by
    have := textLines_full (ls.map fun l => l.render ++ ['\n']) (by
      intro t ht
      obtain ⟨l, hl, rfl⟩ := List.mem_map.1 ht
      exact ⟨l.render, rfl, render_no_newline l (hwf l hl)⟩) []
    simpa [Spec.parFile, textLines] using this
  unfold loadText
  rw [hlines]
  clear hlines
  have key : ∀ (ls : List Spec.ParLine) (kvs done : List (Option (String × V))) (acc : Dict V),
      (∀ l ∈ ls, l.WF) → ls.map (fun l => l.meaning io) = kvs.map .ok →
      acc.keys.Nodup → (∀ k, acc.find? k = Spec.lastValue done k) →
      ∃ d, (ls.map fun l => l.render ++ ['\n']).foldlM (loadLine io) acc = .ok d ∧ d.keys.Nodup ∧
        ∀ k, d.find? k = Spec.lastValue (done ++ kvs) k := by
    intro ls
    induction ls with
    | nil =>
      intro kvs done acc _ hm hn hf
      have : kvs = [] := by simpa using hm.symm
      subst this
      exact ⟨acc, rfl, hn, by simpa using hf⟩
    | cons l ls ih =>
      intro kvs done acc hwf hm hn hf
      cases kvs with
      | nil => simp at hm
      | cons o kvs =>
        simp only [List.map_cons, List.cons.injEq] at hm
        rw [List.map_cons, List.foldlM_cons, loadLine_render io acc l (hwf l (by simp)), hm.1]
        have hw := fun x hx => hwf x (List.mem_cons_of_mem l hx)
        have hd : done ++ o :: kvs = (done ++ [o]) ++ kvs := by simp
        cases o with
        | none =>
          obtain ⟨d, h1, h2, h3⟩ := ih kvs (done ++ [none]) acc hw hm.2 hn (by
            intro k; rw [lastValue_append]; exact hf k)
          exact ⟨d, h1, h2, by rw [hd]; exact h3⟩
        | some kv =>
          obtain ⟨d, h1, h2, h3⟩ := ih kvs (done ++ [some kv]) (Dict.set acc kv.1 kv.2) hw hm.2
            (Dict.nodup_set _ _ _ hn) (by
              intro k
              rw [lastValue_append, Dict.find?_set]
              split <;> simp_all)
          exact ⟨d, h1, h2, by rw [hd]; exact h3⟩
  have := key ls kvs [] [] hwf hm (by simp [Dict.keys]) (by simp [Spec.lastValue])
  simpa using this

/-- **C45.** Any line that is neither a comment in its first column nor contains an equals
sign before its first hash - a blank line, an indented comment - makes the whole file fail
to load. -/
theorem C45_other_lines_fail {V : Type} (io : NumIO V) (content line : Text)
    (hl : line ∈ textLines content) (h1 : line.head? ≠ some '#')
    (h2 : '=' ∉ line.takeWhile fun c => decide (c ≠ '#')) :
    ¬ ∃ d, loadText io content = .ok d := by
  have hstrip : '=' ∉ (strip line).takeWhile fun c => decide (c ≠ '#') := by
    obtain ⟨w, e1, hw⟩ := lstrip_decomp line
    obtain ⟨w2, e2, hw2⟩ := rstrip_decomp (lstrip line)
    rw [e1] at h2
    have hsplit : (w ++ lstrip line).takeWhile (fun c => decide (c ≠ '#')) =
        w ++ (lstrip line).takeWhile fun c => decide (c ≠ '#') := by
      clear e1 h2
      induction w with
      | nil => rfl
      | cons x w ih =>
        have hx : x ≠ '#' := by
          intro e; have := hw x (by simp); rw [e] at this; simp [isWs] at this
        simp only [List.cons_append, List.takeWhile_cons, hx, ne_eq, not_false_eq_true, decide_true, if_true]
        rw [← ih fun c hc => hw c (List.mem_cons_of_mem _ hc)]
    rw [hsplit, List.mem_append, not_or] at h2
    have h3 := h2.2
    rw [e2] at h3
    have hp : ((strip line).takeWhile fun c => decide (c ≠ '#')) <+:
        ((rstrip (lstrip line) ++ w2).takeWhile fun c => decide (c ≠ '#')) := by
      rw [strip_eq]
      generalize rstrip (lstrip line) = s
      clear e2 h3
      induction s with
      | nil => simp
      | cons x s ih =>
        simp only [List.cons_append, List.takeWhile_cons]
        split
        · exact (List.cons_prefix_cons).2 ⟨rfl, ih⟩
        · simp
    exact fun hm => h3 (hp.subset hm)
  have herr : ∀ acc, loadLine io acc line = .error .indexError := by
    intro acc
    unfold loadLine
    rw [if_neg h1]
    simp only [splitOn_head]
    rw [splitOn_not_mem _ _ hstrip]
    rfl
  unfold loadText
  generalize textLines content = ls at hl
  rintro ⟨d, hd⟩
  have : ∀ (ls : List Text) (acc : Dict V), line ∈ ls → ¬ ls.foldlM (loadLine io) acc = .ok d := by
    intro ls
    induction ls with
    | nil => intro acc hm; simp at hm
    | cons l ls ih =>
      intro acc hm he
      rw [List.foldlM_cons] at he
      rcases List.mem_cons.1 hm with rfl | hm
      · rw [herr acc] at he; cases he
      · cases hl : loadLine io acc l with
        | error e => rw [hl] at he; cases he
        | ok a => rw [hl] at he; exact ih a hm he
  exact this ls [] hl hd

/-- A toy number format: natural numbers in unary, with one uncertainty form. -/
def toyIO : NumIO ℕ where
  str n := List.replicate n '1'
  parseU s := .ok s.length
  parseF s := if s.all (· = '1') then .ok s.length else .error .valueError
  mean l := l.sum / l.length

/-- non-vacuity of C45 -/
example : ∃ d, loadText toyIO (Spec.parFile [.comment ['x'], .assign ['a', ' '] [' ', '1', '1'] none,
    .assign ['b'] ['1', ',', '1', '1', '1'] (some ['y']), .assign ['a'] ['1', '1', '1', '1'] none]) = .ok d ∧
    d.find? "a" = some 4 ∧ d.find? "b" = some 2 := by
  obtain ⟨d, h1, _, h3⟩ := C45_load_documented toyIO
    [.comment ['x'], .assign ['a', ' '] [' ', '1', '1'] none,
      .assign ['b'] ['1', ',', '1', '1', '1'] (some ['y']), .assign ['a'] ['1', '1', '1', '1'] none]
    [none, some ("a", 2), some ("b", 2), some ("a", 4)] (by
      have h1 : ∀ t : Text, (none : Option Text) = some t → '\n' ∉ t := by simp
      have h2 : ∀ t : Text, some ['y'] = some t → '\n' ∉ t := by
        intro t ht; injection ht with ht; subst ht; decide
      intro l hl
      simp only [List.mem_cons, List.not_mem_nil, or_false] at hl
      rcases hl with rfl | rfl | rfl | rfl
      · show '\n' ∉ ['x']; decide
      · exact ⟨by decide, h1⟩
      · exact ⟨by decide, h2⟩
      · exact ⟨by decide, h1⟩) (by rfl)
  exact ⟨d, h1, by rw [h3]; rfl, by rw [h3]; rfl⟩
example : ['\n'] ∈ textLines ['a', '=', '1', '\n', '\n'] := by decide

/-! ## C44: writing and loading back -/

/-- Keys that survive: trimmed, without separators. -/
def Spec.KeyOK (k : String) : Prop :=
  strip k.toList = k.toList ∧ ∀ c ∈ k.toList, c ≠ '=' ∧ c ≠ '#' ∧ c ≠ '\n'

/-- `v` is printed without separators, and its text is read back as `v'`. -/
def Spec.ReadsBackAs {V : Type} (io : NumIO V) (v v' : V) : Prop :=
  (∀ c ∈ io.str v, c ≠ '=' ∧ c ≠ '#' ∧ c ≠ '\n') ∧ Spec.value io (io.str v) = .ok v'

theorem parLine_eq_render {V : Type} (io : NumIO V) (d : Dict V) (k : String) (v : V)
    (h : d.find? k = some v) :
    parLine io d k = (Spec.ParLine.assign (k.toList ++ [' ']) (' ' :: io.str v) none).render ++ ['\n'] := by
  simp [parLine, h, Spec.ParLine.render]

theorem assign_meaning {V : Type} (io : NumIO V) (k : String) (v v' : V) (hk : Spec.KeyOK k)
    (hv : Spec.ReadsBackAs io v v') :
    (Spec.ParLine.assign (k.toList ++ [' ']) (' ' :: io.str v) none).meaning io = .ok (some (k, v')) ∧
    (Spec.ParLine.assign (k.toList ++ [' ']) (' ' :: io.str v) none).WF := by
  constructor
  · have hw : ∀ c ∈ [' '], isWs c = true := by simp [isWs]
    have h1 : Spec.value io (' ' :: io.str v) = Spec.value io (io.str v) := by
      have a := strip_ws_append [' '] (io.str v) hw
      have b := hasPM_ws_append [' '] (io.str v) hw
      simp only [List.singleton_append] at a b
      unfold Spec.value
      rw [a, b]
    simp only [Spec.ParLine.meaning, h1, hv.2, strip_append_ws _ _ hw, hk.1, String.ofList_toList]
  · refine ⟨?_, by simp⟩
    intro c hc
    simp only [List.mem_append, List.mem_cons, List.not_mem_nil, or_false] at hc
    rcases hc with (hc | rfl) | rfl | hc
    · exact hk.2 c hc
    · decide
    · decide
    · exact hv.1 c hc

/-- **C44.** Writing a dictionary and loading the file gives a dictionary with the same keys
in which every value went once through printing and parsing. -/
theorem C44_write_load {V : Type} (io : NumIO V) (d : Dict V) (back : V → V)
    (hn : d.keys.Nodup) (hk : ∀ k ∈ d.keys, Spec.KeyOK k)
    (hv : ∀ k v, d.find? k = some v → Spec.ReadsBackAs io v (back v)) :
    ∃ d', loadText io (writeText io d) = .ok d' ∧ d'.keys.Nodup ∧
      ∀ k, d'.find? k = (d.find? k).map back := by
  classical
  set ks := sortKeys d.keys with hks
  have hperm : ks.Perm d.keys := List.perm_insertionSort _ _
  have hmem : ∀ k ∈ ks, ∃ v, d.find? k = some v := by
    intro k hkm
    have := hperm.mem_iff.1 hkm
    rw [← Dict.has_iff_mem_keys, Dict.has_iff_exists] at this
    exact this
  -- values as a function of the key
  rcases d with _ | ⟨⟨k0, v0⟩, d0⟩
  · refine ⟨[], ?_, by simp [Dict.keys], by simp⟩
    have : ks = [] := by simpa [Dict.keys] using hperm
    unfold writeText
    rw [← hks, this]; rfl
  · set d := (k0, v0) :: d0 with hd
    let val : String → V := fun k => (Dict.find? d k).getD v0
    have hval : ∀ k ∈ ks, Dict.find? d k = some (val k) := by
      intro k hkm; obtain ⟨v, hv⟩ := hmem k hkm; simp [val, hv]
    have hfile : writeText io d = Spec.parFile (ks.map fun k =>
        Spec.ParLine.assign (k.toList ++ [' ']) (' ' :: io.str (val k)) none) := by
      unfold writeText Spec.parFile
      rw [← hks, List.map_map, ← List.flatMap_def]
      have hcong : ∀ l : List String, (∀ k ∈ l, Dict.find? d k = some (val k)) →
          l.flatMap (parLine io d) = l.flatMap ((fun l => l.render ++ ['\n']) ∘ fun k =>
            Spec.ParLine.assign (k.toList ++ [' ']) (' ' :: io.str (val k)) none) := by
        intro l hl
        induction l with
        | nil => rfl
        | cons k l ih =>
          rw [List.flatMap_cons, List.flatMap_cons, ih fun x hx => hl x (List.mem_cons_of_mem _ hx),
            parLine_eq_render io d k (val k) (hl k (by simp))]
          rfl
      exact hcong ks hval
    have hm : ∀ k ∈ ks, _ := fun k hkm =>
      assign_meaning io k (val k) (back (val k)) (hk k (hperm.mem_iff.1 hkm)) (hv k (val k) (hval k hkm))
    obtain ⟨d', h1, h2, h3⟩ := C45_load_documented io
      (ks.map fun k => Spec.ParLine.assign (k.toList ++ [' ']) (' ' :: io.str (val k)) none)
      (ks.map fun k => some (k, back (val k)))
      (by
        intro l hl
        obtain ⟨k, hkm, rfl⟩ := List.mem_map.1 hl
        exact (hm k hkm).2)
      (by
        rw [List.map_map, List.map_map]
        apply List.map_congr_left
        intro k hkm
        exact (hm k hkm).1)
    refine ⟨d', by rw [hfile]; exact h1, h2, fun k => ?_⟩
    rw [h3 k]
    have hlast : ∀ (l : List String) (init : Option V),
        (l.map fun k => some (k, back (val k))).foldl (fun acc o => match o with
          | some (k', v) => if k' = k then some v else acc
          | none => acc) init = if k ∈ l then some (back (val k)) else init := by
      intro l
      induction l with
      | nil => simp
      | cons a l ih =>
        intro init
        simp only [List.map_cons, List.foldl_cons, ih]
        by_cases e : a = k
        · subst e; simp
        · have e' : ¬ k = a := fun h => e h.symm
          simp [e, e']
    unfold Spec.lastValue
    rw [hlast]
    by_cases hkm : k ∈ ks
    · rw [if_pos hkm, hval k hkm]; rfl
    · rw [if_neg hkm]
      have : Dict.find? d k = none := (Dict.find?_eq_none_iff d k).2 fun h => hkm (hperm.mem_iff.2 h)
      rw [this]; rfl

/-- **C44.** When printing is lossless (Python floats), the round trip is the identity on
every key. -/
theorem C44_lossless_roundtrip {V : Type} (io : NumIO V) (d : Dict V)
    (hn : d.keys.Nodup) (hk : ∀ k ∈ d.keys, Spec.KeyOK k)
    (hv : ∀ k v, d.find? k = some v → Spec.ReadsBackAs io v v) :
    ∃ d', loadText io (writeText io d) = .ok d' ∧ ∀ k, d'.find? k = d.find? k := by
  obtain ⟨d', h1, _, h3⟩ := C44_write_load io d id hn hk hv
  exact ⟨d', h1, fun k => by rw [h3 k]; simp⟩

/-- non-vacuity of C44 -/
example : ∃ d', loadText toyIO (writeText toyIO [("w", 3), ("c", 2)]) = .ok d' ∧
    ∀ k, d'.find? k = Dict.find? [("w", 3), ("c", 2)] k := by
  apply C44_lossless_roundtrip
  · decide
  · intro k hk
    simp only [Dict.keys, List.map_cons, List.map_nil, List.mem_cons, List.not_mem_nil, or_false] at hk
    rcases hk with rfl | rfl <;> simp [Spec.KeyOK] <;> decide
  · intro k v hv
    simp only [Dict.find?] at hv
    split_ifs at hv <;> simp at hv <;> subst hv <;> exact ⟨by decide, rfl⟩

/-! ## C46 -/

/-- **C46.** On a new file the call writes; on an existing one the first answer that is y or
n decides: after n the file is as before and the result is False, after y it holds exactly
the written text; any number of other answers before that changes nothing. -/
theorem C46_overwrite_protocol {V : Type} (io : NumIO V) (d : Dict V) (old : Text)
    (others : List String) (rest : List String) (ho : ∀ a ∈ others, a ≠ "y" ∧ a ≠ "n") :
    writeParameterFile io none (others ++ rest) d = some (some (writeText io d), true) ∧
    writeParameterFile io (some old) (others ++ "n" :: rest) d = some (some old, false) ∧
    writeParameterFile io (some old) (others ++ "y" :: rest) d = some (some (writeText io d), true) ∧
    writeParameterFile io (some old) others d = none := by
  have h : ∀ r, askYesNo (others ++ r) = askYesNo r := by
    intro r
    induction others with
    | nil => rfl
    | cons a others ih =>
      obtain ⟨h1, h2⟩ := ho a (by simp)
      simp only [List.cons_append, askYesNo, h1, h2, if_false]
      exact ih fun x hx => ho x (List.mem_cons_of_mem _ hx)
  have h' := h []
  rw [List.append_nil] at h'
  refine ⟨rfl, ?_, ?_, ?_⟩
  · simp [writeParameterFile, h, askYesNo]
  · simp [writeParameterFile, h, askYesNo]
  · simp [writeParameterFile, h', askYesNo]

/-- **C46.** In every completed call the returned value tells whether the file now holds the
written text, and a False leaves the file as it was. -/
theorem C46_result_is_truthful {V : Type} (io : NumIO V) (d : Dict V) (file file' : Option Text)
    (answers : List String) (saved : Bool)
    (h : writeParameterFile io file answers d = some (file', saved)) :
    (saved = true → file' = some (writeText io d)) ∧ (saved = false → file' = file ∧ file ≠ none) := by
  unfold writeParameterFile at h
  cases file with
  | none => simp at h; obtain ⟨rfl, rfl⟩ := h; simp
  | some old =>
    simp only at h
    cases ha : askYesNo answers with
    | none => rw [ha] at h; simp at h
    | some b =>
      rw [ha] at h
      cases b <;> simp at h <;> obtain ⟨rfl, rfl⟩ := h <;> simp

/-! ## C47 -/

/-- What removing the uncertainty of a value should give. -/
inductive Spec.NominalOf : PVal → PVal → Prop
  | ufloat (n s : ℝ) : Spec.NominalOf (.ufloat n s) (.num n)
  | num (x : ℝ) : Spec.NominalOf (.num x) (.num x)
  | seq (l : List (ℝ × ℝ)) :
      Spec.NominalOf (.seq (l.map fun p => .ufloat p.1 p.2)) (.seq (l.map fun p => .num p.1))

theorem mapM_nominal (l : List PVal) (ns : List ℝ) :
    l.mapM (fun x => x.nominal?) = some ns ↔ ∃ ps : List (ℝ × ℝ), l = ps.map (fun p => .ufloat p.1 p.2) ∧
      ns = ps.map Prod.fst := by
  induction l generalizing ns with
  | nil =>
    constructor
    · intro h
      have : ns = [] := by simpa using h.symm
      exact ⟨[], rfl, by simp [this]⟩
    · rintro ⟨ps, h1, rfl⟩
      have : ps = [] := by simpa using h1
      subst this; rfl
  | cons x l ih =>
    rw [List.mapM_cons]
    cases x with
    | ufloat n s =>
      simp only [show (PVal.ufloat n s).nominal? = some n from rfl, Option.bind_eq_bind, Option.bind_some]
      constructor
      · intro h
        cases hl : l.mapM (fun x => x.nominal?) with
        | none => rw [hl] at h; simp at h
        | some ms =>
          rw [hl] at h
          obtain ⟨ps, e1, e2⟩ := (ih ms).1 hl
          refine ⟨(n, s) :: ps, by simp [e1], ?_⟩
          simp at h
          simp [← h, e2]
      · rintro ⟨ps, e1, e2⟩
        cases ps with
        | nil => simp at e1
        | cons p ps =>
          simp only [List.map_cons, List.cons.injEq, PVal.ufloat.injEq] at e1
          rw [(ih _).2 ⟨ps, e1.2, rfl⟩, e2]
          simp [e1.1.1]
    | num y =>
      simp only [show (PVal.num y).nominal? = none from rfl, Option.bind_eq_bind, Option.bind_none]
      constructor
      · intro h; simp at h
      · rintro ⟨ps, e1, _⟩; cases ps <;> simp at e1
    | seq m =>
      simp only [show (PVal.seq m).nominal? = none from rfl, Option.bind_eq_bind, Option.bind_none]
      constructor
      · intro h; simp at h
      · rintro ⟨ps, e1, _⟩; cases ps <;> simp at e1

theorem removeUncertainty_spec (v v' : PVal) :
    removeUncertainty v = .ok v' ↔ Spec.NominalOf v v' := by
  cases v with
  | ufloat n s =>
    simp only [removeUncertainty, Except.ok.injEq]
    exact ⟨fun h => h ▸ .ufloat n s, fun h => by cases h; rfl⟩
  | num x =>
    simp only [removeUncertainty, Except.ok.injEq]
    exact ⟨fun h => h ▸ .num x, fun h => by cases h; rfl⟩
  | seq l =>
    simp only [removeUncertainty]
    constructor
    · intro h
      cases hm : l.mapM (fun x => x.nominal?) with
      | none => rw [hm] at h; simp at h
      | some ns =>
        rw [hm] at h
        obtain ⟨ps, e1, e2⟩ := (mapM_nominal l ns).1 hm
        simp only [Except.ok.injEq] at h
        rw [← h, e1, e2, List.map_map]
        exact .seq ps
    · intro h
      cases h with
      | seq ps =>
        rw [(mapM_nominal _ _).2 ⟨ps, rfl, rfl⟩]
        simp [List.map_map, Function.comp_def]

/-- **C47.** A successful call returns the same keys in the same order, each value replaced
by its nominal value(s). -/
theorem C47_remove_uncertainties (d d' : Dict PVal) (hn : d.keys.Nodup)
    (h : removeUncertainties d = .ok d') :
    List.Forall₂ (fun e e' => e.1 = e'.1 ∧ Spec.NominalOf e.2 e'.2) d d' := by
  have key : ∀ (d : Dict PVal) (acc d' : Dict PVal), (d.keys.Nodup) →
      (∀ k ∈ d.keys, k ∉ acc.keys) →
      d.foldlM (fun acc kv => match removeUncertainty kv.2 with
        | .error e => .error e
        | .ok v => .ok (Dict.set acc kv.1 v)) acc = (.ok d' : Except PyErr (Dict PVal)) →
      ∃ t, d' = acc ++ t ∧ List.Forall₂ (fun e e' => e.1 = e'.1 ∧ Spec.NominalOf e.2 e'.2) d t := by
    intro d
    induction d with
    | nil =>
      intro acc d' _ _ h
      have : acc = d' := by simpa [pure, Except.pure] using h
      exact ⟨[], by simp [this], .nil⟩
    | cons kv d ih =>
      intro acc d' hn hdis h
      obtain ⟨k, v⟩ := kv
      have hn' : k ∉ Dict.keys d ∧ (Dict.keys d).Nodup := by simpa [Dict.keys] using hn
      rw [List.foldlM_cons] at h
      cases hv : removeUncertainty v with
      | error e => simp only [hv] at h; cases h
      | ok w =>
        simp only [hv] at h
        have hset : Dict.set acc k w = acc ++ [(k, w)] := by
          have hk : k ∉ Dict.keys acc := hdis k (by simp [Dict.keys])
          clear h hdis ih
          induction acc with
          | nil => rfl
          | cons e acc ih2 =>
            obtain ⟨k', v'⟩ := e
            have hne : ¬ k' = k := fun e => hk (by simp [Dict.keys, e])
            rw [Dict.set, if_neg hne, ih2 fun hm => hk (by
              simp only [Dict.keys, List.map_cons, List.mem_cons] at hm ⊢; exact Or.inr hm)]
            rfl
        have h : d.foldlM _ (Dict.set acc k w) = _ := h
        obtain ⟨t, e1, e2⟩ := ih (Dict.set acc k w) d' hn'.2 (by
          intro x hx
          rw [hset]
          simp only [Dict.keys, List.map_append, List.mem_append, List.map_cons, List.map_nil,
            List.mem_singleton, not_or]
          refine ⟨hdis x (by simp only [Dict.keys, List.map_cons, List.mem_cons]; exact Or.inr hx), ?_⟩
          rintro rfl
          exact hn'.1 hx) h
        refine ⟨(k, w) :: t, by rw [e1, hset]; simp, ?_⟩
        exact .cons ⟨rfl, (removeUncertainty_spec v w).1 hv⟩ e2
  obtain ⟨t, e1, e2⟩ := key d [] d' hn (by simp [Dict.keys]) h
  rw [List.nil_append] at e1
  exact e1 ▸ e2

/-- **C47.** Dictionaries of numbers, with or without uncertainty, never fail, and removing
twice is removing once.  For a non-empty sequence of uncertain numbers the second removal
raises `AttributeError`. -/
theorem C47_idempotent_on_numbers (d : Dict PVal) (hn : d.keys.Nodup)
    (h : ∀ k v, (k, v) ∈ d → ∃ x y, v = .ufloat x y ∨ v = .num x) :
    ∃ d', removeUncertainties d = .ok d' ∧ removeUncertainties d' = .ok d' := by
  have main : ∀ (d : Dict PVal) (acc : Dict PVal), (∀ k v, (k, v) ∈ d → ∃ x y, v = .ufloat x y ∨ v = .num x) →
      ∃ t, d.foldlM (fun acc kv => match removeUncertainty kv.2 with
        | .error e => .error e
        | .ok v => .ok (Dict.set acc kv.1 v)) acc = (.ok t : Except PyErr (Dict PVal)) := by
    intro d
    induction d with
    | nil => intro acc _; exact ⟨acc, rfl⟩
    | cons kv d ih =>
      intro acc h
      obtain ⟨k, v⟩ := kv
      obtain ⟨x, y, hv⟩ := h k v (by simp)
      have : ∃ w, removeUncertainty v = .ok w := by
        rcases hv with rfl | rfl
        · exact ⟨_, rfl⟩
        · exact ⟨_, rfl⟩
      obtain ⟨w, hw⟩ := this
      rw [List.foldlM_cons]
      simp only [hw]
      exact ih _ fun k v hm => h k v (List.mem_cons_of_mem _ hm)
  obtain ⟨d', hd'⟩ := main d [] h
  replace hd' : removeUncertainties d = .ok d' := hd'
  have hrel := C47_remove_uncertainties d d' hn hd'
  have hkeys : d'.keys = d.keys := by
    clear hd' h main hn
    induction hrel with
    | nil => rfl
    | cons h _ ih => simp only [Dict.keys, List.map_cons] at ih ⊢; rw [ih, h.1]
  have hnum : ∀ k v, (k, v) ∈ d' → ∃ x, v = .num x := by
    clear hd' main hn hkeys
    induction hrel with
    | nil => intro k v hm; simp at hm
    | cons hh hr ih =>
      intro k v hm
      rcases List.mem_cons.1 hm with rfl | hm
      · rename_i e _ _
        obtain ⟨x, y, hv⟩ := h e.1 e.2 (by simp)
        obtain ⟨_, h2⟩ := hh
        rcases hv with hv | hv <;> rw [hv] at h2 <;> cases h2 <;> exact ⟨_, rfl⟩
      · exact ih (fun k v hm => h k v (List.mem_cons_of_mem _ hm)) k v hm
  obtain ⟨d'', hd''⟩ := main d' [] fun k v hm => by
    obtain ⟨x, hx⟩ := hnum k v hm; exact ⟨x, 0, Or.inr hx⟩
  have hrel2 := C47_remove_uncertainties d' d'' (by rw [hkeys]; exact hn) hd''
  have : d'' = d' := by
    clear hd'' hd' main hrel hkeys
    induction hrel2 with
    | nil => rfl
    | cons hh hr ih =>
      rename_i e e' l l'
      have h1 : e' = e := by
        obtain ⟨x, hx⟩ := hnum e.1 e.2 (by simp)
        obtain ⟨a, b⟩ := hh
        rw [hx] at b
        obtain ⟨e1, e2⟩ := e
        obtain ⟨e1', e2'⟩ := e'
        simp only at a b hx
        subst a hx
        cases b
        rfl
      rw [h1, ih fun k v hm => hnum k v (List.mem_cons_of_mem _ hm)]
  exact ⟨d', hd', by rw [← this] at hd'' ⊢; rw [this] at hd'' ⊢; exact this ▸ hd''⟩

theorem C47_sequences_fail_the_second_time (k : String) (p : ℝ × ℝ) (ps : List (ℝ × ℝ)) :
    ∃ d', removeUncertainties [(k, .seq ((p :: ps).map fun q => .ufloat q.1 q.2))] = .ok d' ∧
      removeUncertainties d' = .error .attributeError := by
  have h := (removeUncertainty_spec _ _).2 (Spec.NominalOf.seq (p :: ps))
  refine ⟨[(k, .seq ((p :: ps).map fun q => .num q.1))], ?_, ?_⟩
  · simp only [removeUncertainties, List.foldlM_cons, List.foldlM_nil, h]
    rfl
  · have h2 : removeUncertainty (.seq ((p :: ps).map fun q => PVal.num q.1)) = .error .attributeError := by
      simp [removeUncertainty, List.mapM_cons, PVal.nominal?]
    simp only [removeUncertainties, List.foldlM_cons, List.foldlM_nil, h2]
    rfl

/-- non-vacuity of C47 -/
example : ∃ d', removeUncertainties [("w", .ufloat 1 2), ("c", .num 3)] = .ok d' := ⟨_, rfl⟩

end BP
