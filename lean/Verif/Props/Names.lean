import Mathlib.Tactic.Ring
import Mathlib.Tactic.NormNum
import Verif.Lemmas.Text
import Verif.Props.IO

set_option linter.unusedSimpArgs false

/-!
# C36, C48, C49, C78: camel-case names, period files, pendulum data files
-/

namespace BP

/-! ## C48 -/

/-- A capitalised word: a capital, a lower-case letter, then no further capital; no white
space. -/
def Spec.CamelWord (w : Text) : Prop :=
  ∃ u l r, w = u :: l :: r ∧ isUp u = true ∧ isLo l = true ∧ (∀ c ∈ r, isUp c = false) ∧
    ∀ c ∈ w, isWs c = false

/-- The words separated by single spaces. -/
def Spec.joinWords (ws : List Text) : Text := (ws.intersperse [' ']).flatten

theorem isLo_not_up {c : Char} (h : isLo c = true) : isUp c = false := by
  simp only [isLo, isUp, Bool.and_eq_true, decide_eq_true_eq, Bool.and_eq_false_iff,
    decide_eq_false_iff_not] at *
  right
  intro h2
  have h3 : 'a' ≤ 'Z' := le_trans h.1 h2
  exact absurd h3 (by decide)

theorem camelSub_no_up (prev : Option Char) (r rest : Text) (h : ∀ c ∈ r, isUp c = false) :
    ∃ prev', camelSub prev (r ++ rest) = r ++ camelSub prev' rest := by
  induction r generalizing prev with
  | nil => exact ⟨prev, rfl⟩
  | cons c r ih =>
    have hc := h c (by simp)
    have hat : camelAt prev (c :: (r ++ rest)) = false := by
      unfold camelAt
      cases prev <;> cases (r ++ rest) <;> simp [hc]
    obtain ⟨p, hp⟩ := ih (some c) fun x hx => h x (List.mem_cons_of_mem _ hx)
    refine ⟨p, ?_⟩
    rw [List.cons_append, camelSub, hat]
    simp [hp]

theorem camelSub_words (prev : Option Char) (ws : List Text) (h : ∀ w ∈ ws, Spec.CamelWord w) :
    camelSub prev ws.flatten = ws.flatMap fun w => ' ' :: w := by
  induction ws generalizing prev with
  | nil => rfl
  | cons w ws ih =>
    obtain ⟨u, l, r, rfl, hu, hl, hr, _⟩ := h w (by simp)
    have hat : camelAt prev (u :: (l :: r ++ ws.flatten)) = true := by
      unfold camelAt; cases prev <;> simp [hu, hl]
    rw [List.flatten_cons, List.cons_append, camelSub, hat]
    obtain ⟨p, hp⟩ := camelSub_no_up (some u) (l :: r) ws.flatten (by
      intro c hc
      rcases List.mem_cons.1 hc with rfl | hc
      · exact isLo_not_up hl
      · exact hr c hc)
    rw [hp, ih p fun x hx => h x (List.mem_cons_of_mem _ hx)]
    simp

theorem strip_of_ends (s : Text) (h1 : ∀ c, s.head? = some c → isWs c = false)
    (h2 : ∀ c, s.getLast? = some c → isWs c = false) : strip s = s := by
  rcases List.eq_nil_or_concat s with rfl | ⟨a, x, hs⟩
  · rfl
  · rw [List.concat_eq_append] at hs
    subst hs
    have hx : isWs x = false := h2 x (by simp)
    have := strip_append_cons a [] x hx
    rw [this]
    have ha : lstrip (a ++ [x]) = a ++ [x] := by
      cases a with
      | nil => simp [lstrip, List.dropWhile_cons, hx]
      | cons y a =>
        have hy := h1 y (by simp)
        simp [lstrip, List.dropWhile_cons, hy]
    rw [lstrip_append_cons a [] x hx] at ha
    rw [show rstrip [] = [] from rfl, ha]

theorem flatMap_eq_join (ws : List Text) (h : ws ≠ []) :
    (ws.flatMap fun w => ' ' :: w) = ' ' :: Spec.joinWords ws := by
  induction ws with
  | nil => exact absurd rfl h
  | cons w ws ih =>
    cases ws with
    | nil => simp [Spec.joinWords]
    | cons w2 ws =>
      rw [List.flatMap_cons, ih (by simp)]
      simp [Spec.joinWords, List.intersperse_cons_cons]

/-- **C48.** Gluing capitalised words together and spacing the result out again gives the
words separated by single spaces, or the list of the words. -/
theorem C48_words_recovered (ws : List Text) (h0 : ws ≠ []) (h : ∀ w ∈ ws, Spec.CamelWord w) :
    spaceOutCamelCase ws.flatten "string" = .ok (.inl (Spec.joinWords ws)) ∧
    spaceOutCamelCase ws.flatten "list" = .ok (.inr ws) := by
  have hso : spaceOut ws.flatten = Spec.joinWords ws := by
    unfold spaceOut
    rw [camelSub_words none ws h, flatMap_eq_join ws h0]
    have := strip_ws_append [' '] (Spec.joinWords ws) (by simp [isWs])
    rw [List.singleton_append] at this
    rw [this]
    apply strip_of_ends
    · intro c hc
      cases ws with
      | nil => exact absurd rfl h0
      | cons w ws =>
        obtain ⟨u, l, r, rfl, _, _, _, hws⟩ := h w (by simp)
        have : c = u := by
          cases ws <;> simp [Spec.joinWords, List.intersperse_cons_cons] at hc <;> exact hc.symm
        rw [this]; exact hws u (by simp)
    · intro c hc
      have : ∃ w ∈ ws, c ∈ w := by
        induction ws with
        | nil => exact absurd rfl h0
        | cons w ws ih =>
          cases ws with
          | nil =>
            simp [Spec.joinWords] at hc
            exact ⟨w, by simp, List.mem_of_getLast? hc⟩
          | cons w2 ws =>
            have hne : Spec.joinWords (w2 :: ws) ≠ [] := by
              obtain ⟨u, l, r, e, _⟩ := h w2 (by simp)
              cases ws <;> simp [Spec.joinWords, List.intersperse_cons_cons, e]
            have e : Spec.joinWords (w :: w2 :: ws) = (w ++ [' ']) ++ Spec.joinWords (w2 :: ws) := by
              simp [Spec.joinWords, List.intersperse_cons_cons]
            rw [e, List.getLast?_append_of_ne_nil _ hne] at hc
            obtain ⟨x, hx, hcx⟩ := ih (by simp) (fun x hx => h x (List.mem_cons_of_mem _ hx)) (by
              have := strip_ws_append [' '] (Spec.joinWords (w2 :: ws)) (by simp [isWs])
              rwa [List.singleton_append] at this) hc
            exact ⟨x, List.mem_cons_of_mem _ hx, hcx⟩
      obtain ⟨w, hw, hcw⟩ := this
      obtain ⟨_, _, _, _, _, _, _, hws⟩ := h w hw
      exact hws c hcw
  constructor
  · simp [spaceOutCamelCase, hso]
  · have : splitOn ' ' (Spec.joinWords ws) = ws := splitOn_join ' ' ws h0 (by
      intro w hw hm
      obtain ⟨_, _, _, _, _, _, _, hws⟩ := h w hw
      have := hws ' ' hm
      simp [isWs] at this)
    simp [spaceOutCamelCase, spaceOutList, hso, this]

theorem camelSub_filter (prev : Option Char) (s : Text) :
    (camelSub prev s).filter (fun c => decide (c ≠ ' ')) = s.filter fun c => decide (c ≠ ' ') := by
  induction s generalizing prev with
  | nil => rfl
  | cons c s ih =>
    rw [camelSub]
    simp only [ne_eq, decide_not] at ih ⊢
    split <;> simp [List.filter_cons, ih]

theorem camelSub_mem (prev : Option Char) (s : Text) (c : Char) (h : c ∈ camelSub prev s) :
    c = ' ' ∨ c ∈ s := by
  induction s generalizing prev with
  | nil => simp [camelSub] at h
  | cons x s ih =>
    rw [camelSub] at h
    split at h
    · rcases List.mem_cons.1 h with h | h
      · exact Or.inl h
      · rcases List.mem_cons.1 h with h | h
        · right; simp [h]
        · rcases ih _ h with h | h
          · exact Or.inl h
          · right; simp [h]
    · rcases List.mem_cons.1 h with h | h
      · right; simp [h]
      · rcases ih _ h with h | h
        · exact Or.inl h
        · right; simp [h]

/-- **C48.** Whatever the text, only spaces are inserted: deleting the spaces of the result
gives the input without its white space at the ends and its spaces. -/
theorem C48_only_spaces_inserted (s : Text) (h : ∀ c ∈ s, isWs c = false) :
    (spaceOut s).filter (fun c => decide (c ≠ ' ')) = s := by
  unfold spaceOut
  have hws : ∀ w : Text, (∀ c ∈ w, isWs c = true) → (∀ c ∈ w, c = ' ' ∨ c ∈ s) →
      w.filter (fun c => decide (c ≠ ' ')) = [] := by
    intro w h1 h2
    rw [List.filter_eq_nil_iff]
    intro c hc
    rcases h2 c hc with rfl | h3
    · simp
    · have := h c h3; rw [h1 c hc] at this; simp at this
  obtain ⟨w1, e1, hw1⟩ := lstrip_decomp (camelSub none s)
  obtain ⟨w2, e2, hw2⟩ := rstrip_decomp (lstrip (camelSub none s))
  have hf := camelSub_filter none s
  have hmem := camelSub_mem none s
  have hs : s.filter (fun c => decide (c ≠ ' ')) = s := by
    rw [List.filter_eq_self]
    intro c hc
    have := h c hc
    simp only [decide_eq_true_eq]
    rintro rfl
    simp [isWs] at this
  rw [hs] at hf
  rw [e1, List.filter_append, e2, List.filter_append] at hf
  rw [hws w1 hw1 (fun c hc => hmem c (by rw [e1]; simp [hc])),
    hws w2 hw2 (fun c hc => hmem c (by rw [e1, e2]; simp [hc]))] at hf
  simpa [strip_eq] using hf

/-- **C48.** Any other output name raises. -/
theorem C48_bad_output (s : Text) (o : String) (h1 : o ≠ "string") (h2 : o ≠ "list") :
    spaceOutCamelCase s o = .error .valueError := by
  simp [spaceOutCamelCase, h1, h2]

/-- non-vacuity of C48 -/
example : Spec.CamelWord ['F', 'r', 'a', 'm', 'e'] :=
  ⟨'F', 'r', ['a', 'm', 'e'], rfl, by decide, by decide, by decide, by decide⟩

/-! ## C49 -/

theorem splitext_mat (root ext : Text) (h1 : '.' ∉ root) (h2 : '.' ∉ ext) (h3 : root ≠ []) :
    splitext (root ++ '.' :: ext) = root := by
  unfold splitext
  rw [splitOn_append _ _ _ h1, splitOn_not_mem _ _ h2]
  have : ¬ (root.all fun c => decide (c = '.')) = true := by
    intro ha
    cases root with
    | nil => exact h3 rfl
    | cons c r =>
      simp at ha
      exact h1 (by simp [ha.1])
  simp at this ⊢
  exact this

/-- **C49.** A name made of the capitalised words bicycle, part, pendulum and order, a trial
number and an extension parses to exactly these fields when the trial number has one digit;
further leading digits end up in the order field. -/
theorem C49_filename_roundtrip (bicycle part pendulum order ds ext : Text) (d : Char)
    (hb : Spec.CamelWord bicycle) (hp : Spec.CamelWord part) (hq : Spec.CamelWord pendulum)
    (ho : Spec.CamelWord order) (hd : ∀ c ∈ ds ++ [d], '0' ≤ c ∧ c ≤ '9')
    (hdot : '.' ∉ bicycle ++ part ++ pendulum ++ order) (hext : '.' ∉ ext) :
    filenameToDict (bicycle ++ part ++ pendulum ++ order ++ ds ++ [d] ++ '.' :: ext) = .ok
      [("bicycle", bicycle), ("part", part), ("pendulum", pendulum), ("angleOrder", order ++ ds),
       ("trial", [d])] := by
  have hdig : ∀ c, '0' ≤ c ∧ c ≤ '9' → isUp c = false ∧ isWs c = false ∧ c ≠ '.' := by
    intro c hc
    refine ⟨?_, ?_, ?_⟩
    · simp only [isUp, Bool.and_eq_false_iff, decide_eq_false_iff_not]
      left; intro h; exact absurd (le_trans h hc.2) (by decide)
    · simp only [isWs, Bool.or_eq_false_iff, decide_eq_false_iff_not]
      refine ⟨⟨⟨⟨⟨?_, ?_⟩, ?_⟩, ?_⟩, ?_⟩, ?_⟩ <;> (rintro rfl; exact absurd hc.1 (by decide))
    · rintro rfl; exact absurd hc.1 (by decide)
  have hword : Spec.CamelWord (order ++ ds ++ [d]) := by
    obtain ⟨u, l, r, rfl, h1, h2, h3, h4⟩ := ho
    refine ⟨u, l, r ++ ds ++ [d], by simp, h1, h2, ?_, ?_⟩
    · intro c hc
      rw [List.append_assoc] at hc
      rcases List.mem_append.1 hc with hc | hc
      · exact h3 c hc
      · exact (hdig c (hd c hc)).1
    · intro c hc
      rw [List.append_assoc] at hc
      rcases List.mem_append.1 hc with hc | hc
      · exact h4 c hc
      · exact (hdig c (hd c hc)).2.1
  have hroot : '.' ∉ bicycle ++ part ++ pendulum ++ order ++ ds ++ [d] := by
    intro hm
    rw [List.append_assoc] at hm
    rcases List.mem_append.1 hm with hm | hm
    · exact hdot hm
    · exact (hdig _ (hd _ hm)).2.2 rfl
  have hlist : spaceOutList (bicycle ++ part ++ pendulum ++ order ++ ds ++ [d]) =
      [bicycle, part, pendulum, order ++ ds ++ [d]] := by
    have := (C48_words_recovered [bicycle, part, pendulum, order ++ ds ++ [d]] (by simp) (by
      intro w hw
      simp only [List.mem_cons, List.not_mem_nil, or_false] at hw
      rcases hw with rfl | rfl | rfl | rfl
      · exact hb
      · exact hp
      · exact hq
      · exact hword)).2
    simp [spaceOutCamelCase] at this
    simpa using this
  unfold filenameToDict
  rw [splitext_mat _ _ hroot hext (by simp), hlist]
  simp [Dict.set]

/-- non-vacuity of C49 -/
example : filenameToDict (['B', 'i'] ++ ['F', 'r'] ++ ['C', 'o'] ++ ['F', 'i'] ++ [] ++ ['1'] ++ '.' :: ['m'])
    = .ok [("bicycle", ['B', 'i']), ("part", ['F', 'r']), ("pendulum", ['C', 'o']),
      ("angleOrder", ['F', 'i']), ("trial", ['1'])] := by
  apply C49_filename_roundtrip
  · exact ⟨_, _, [], rfl, by decide, by decide, by decide, by decide⟩
  · exact ⟨_, _, [], rfl, by decide, by decide, by decide, by decide⟩
  · exact ⟨_, _, [], rfl, by decide, by decide, by decide, by decide⟩
  · exact ⟨_, _, [], rfl, by decide, by decide, by decide, by decide⟩
  · decide
  · decide
  · decide

/-! ## C36 -/

/-- The period entries of a dictionary are printed without newlines. -/
def Spec.PeriodsPrintable {V : Type} (io : NumIO V) (mp : Dict V) : Prop :=
  ∀ k v, mp.find? k = some v → k.toList.head? = some 'T' → '\n' ∉ k.toList ∧ '\n' ∉ io.str v

/-- The keys written, in order. -/
def periodKeys {V : Type} (mp : Dict V) : List String :=
  sortKeys ((Dict.keys mp).filter fun k => k.toList.head? = some 'T')

theorem mem_periodKeys {V : Type} (mp : Dict V) (k : String) :
    k ∈ periodKeys mp ↔ k.toList.head? = some 'T' ∧ ∃ v, mp.find? k = some v := by
  unfold periodKeys sortKeys
  rw [List.mem_insertionSort, List.mem_filter, ← Dict.has_iff_mem_keys, Dict.has_iff_exists]
  simp [and_comm]

theorem parLine_full {V : Type} (io : NumIO V) (mp : Dict V) (h : Spec.PeriodsPrintable io mp) :
    ∀ l ∈ (periodKeys mp).map (parLine io mp), FullLine l ∧ l.head? = some 'T' := by
  intro l hl
  obtain ⟨k, hk, rfl⟩ := List.mem_map.1 hl
  obtain ⟨hT, v, hv⟩ := (mem_periodKeys mp k).1 hk
  obtain ⟨h1, h2⟩ := h k v hv hT
  constructor
  · refine ⟨k.toList ++ " = ".toList ++ io.str v, by simp [parLine, hv], ?_⟩
    simp [h1, h2]
  · cases hkl : k.toList with
    | nil => rw [hkl] at hT; simp at hT
    | cons c r => rw [hkl] at hT; simp at hT; simp [parLine, hkl, hT]

/-- **C36.** For a file that is empty or ends with a newline: the new file consists of the
lines that do not start with T, in order, followed by one line per period, sorted by key. -/
theorem C36_file_lines {V : Type} (io : NumIO V) (content : Text) (mp : Dict V)
    (hc : content = [] ∨ content.getLast? = some '\n') (hp : Spec.PeriodsPrintable io mp) :
    textLines (writePeriods io content mp) =
      ((textLines content).filter fun l => decide (l.head? ≠ some 'T')) ++
      (periodKeys mp).map (parLine io mp) ∧
    (periodKeys mp).Pairwise (· ≤ ·) ∧
    (∀ k, k ∈ periodKeys mp ↔ k.toList.head? = some 'T' ∧ ∃ v, mp.find? k = some v) := by
  refine ⟨?_, List.pairwise_insertionSort _ _, mem_periodKeys mp⟩
  have hfull := fullLine_of_mem content hc
  have hw : writePeriods io content mp =
      (((textLines content).filter fun l => decide (l.head? ≠ some 'T')) ++
        (periodKeys mp).map (parLine io mp)).flatten ++ [] := by
    simp [writePeriods, periodKeys, List.flatMap_def]
  rw [hw, textLines_full _ _ []]
  · simp [textLines]
  · intro l hl
    rcases List.mem_append.1 hl with hl | hl
    · exact hfull l (List.mem_filter.1 hl).1
    · exact (parLine_full io mp hp l hl).1

/-- **C36.** Writing the same periods again changes nothing. -/
theorem C36_idempotent {V : Type} (io : NumIO V) (content : Text) (mp : Dict V)
    (hc : content = [] ∨ content.getLast? = some '\n') (hp : Spec.PeriodsPrintable io mp) :
    writePeriods io (writePeriods io content mp) mp = writePeriods io content mp := by
  have h := (C36_file_lines io content mp hc hp).1
  have h1 : writePeriods io (writePeriods io content mp) mp =
      ((textLines (writePeriods io content mp)).filter fun l => decide (l.head? ≠ some 'T')).flatten ++
      (periodKeys mp).flatMap (parLine io mp) := by
    simp [writePeriods, periodKeys]
  have h2 : ((periodKeys mp).map (parLine io mp)).filter (fun l => decide (l.head? ≠ some 'T')) = [] := by
    rw [List.filter_eq_nil_iff]
    intro l hl
    simp [(parLine_full io mp hp l hl).2]
  rw [h1, h, List.filter_append, h2, List.filter_filter]
  simp [writePeriods, periodKeys]

/-- The key that a loaded line assigns starts with T if the line does. -/
theorem loadLine_agree {V : Type} (io : NumIO V) (acc acc' : Dict V) (line : Text)
    (h : loadLine io acc line = .ok acc') :
    (∃ k v, acc' = Dict.set acc k v ∧ (∀ b, loadLine io b line = .ok (Dict.set b k v)) ∧
      (line.head? = some 'T' → k.toList.head? = some 'T')) ∨
    (acc' = acc ∧ ∀ b, loadLine io b line = .ok b) := by
  by_cases hh : line.head? = some '#'
  · right
    have : ∀ b, loadLine io b line = .ok b := fun b => by simp [loadLine, hh]
    rw [this acc] at h
    exact ⟨(Except.ok.inj h).symm, this⟩
  · left
    unfold loadLine at h ⊢
    rw [if_neg hh] at h
    simp only [if_neg hh]
    set eq := splitOn '=' ((splitOn '#' (strip line)).headD []) with heq
    cases h1 : eq[1]? with
    | none => simp only [h1] at h; cases h
    | some rhs =>
      simp only [h1] at h ⊢
      cases h2 : List.mapM (if hasPM rhs = true then io.parseU else io.parseF) (splitOn ',' (strip rhs)) with
      | error e => simp only [h2] at h; cases h
      | ok vs =>
        simp only [h2] at h ⊢
        refine ⟨_, _, (Except.ok.inj h).symm, fun b => rfl, ?_⟩
        intro hT
        cases line with
        | nil => simp at hT
        | cons c r =>
          simp at hT
          subst hT
          have hT' : isWs 'T' = false := by decide
          have e1 := strip_append_cons [] r 'T' hT'
          simp only [List.nil_append] at e1
          rw [e1] at heq
          rw [heq, splitOn_head, splitOn_head]
          have e3 : ((lstrip ([] : Text) ++ 'T' :: rstrip r).takeWhile fun x => decide (x ≠ '#')).takeWhile
              (fun x => decide (x ≠ '=')) = 'T' :: (((rstrip r).takeWhile fun x => decide (x ≠ '#')).takeWhile
              (fun x => decide (x ≠ '='))) := by
            simp [lstrip, List.takeWhile_cons]
          rw [e3]
          have e4 := strip_append_cons [] (((rstrip r).takeWhile fun x => decide (x ≠ '#')).takeWhile
              (fun x => decide (x ≠ '='))) 'T' hT'
          simp only [List.nil_append] at e4
          rw [e4]
          simp [lstrip]

theorem load_filter_agree {V : Type} (io : NumIO V) (ls : List Text) :
    ∀ (a b d : Dict V), ls.foldlM (loadLine io) a = .ok d →
      (∀ k, k.toList.head? ≠ some 'T' → a.find? k = b.find? k) →
      ∃ e, (ls.filter fun l => decide (l.head? ≠ some 'T')).foldlM (loadLine io) b = .ok e ∧
        ∀ k, k.toList.head? ≠ some 'T' → d.find? k = e.find? k := by
  induction ls with
  | nil =>
    intro a b d h hab
    have : a = d := by simpa [pure, Except.pure] using h
    subst this
    exact ⟨b, rfl, hab⟩
  | cons l ls ih =>
    intro a b d h hab
    rw [List.foldlM_cons] at h
    cases hl : loadLine io a l with
    | error e => rw [hl] at h; cases h
    | ok a1 =>
      rw [hl] at h
      replace h : ls.foldlM (loadLine io) a1 = .ok d := h
      by_cases hT : l.head? = some 'T'
      · have hf : (l :: ls).filter (fun l => decide (l.head? ≠ some 'T')) =
            ls.filter fun l => decide (l.head? ≠ some 'T') := by simp [List.filter_cons, hT]
        rw [hf]
        apply ih a1 b d h
        intro k hk
        rcases loadLine_agree io a a1 l hl with ⟨k', v, rfl, _, h3⟩ | ⟨rfl, _⟩
        · have hne : k' ≠ k := by rintro rfl; exact hk (h3 hT)
          rw [Dict.find?_set_of_ne _ _ hne]; exact hab k hk
        · exact hab k hk
      · have hf : (l :: ls).filter (fun l => decide (l.head? ≠ some 'T')) =
            l :: ls.filter fun l => decide (l.head? ≠ some 'T') := by simp [List.filter_cons, hT]
        rw [hf, List.foldlM_cons]
        rcases loadLine_agree io a a1 l hl with ⟨k', v, rfl, h2, _⟩ | ⟨rfl, h2⟩
        · rw [h2 b]
          apply ih _ _ d h
          intro k hk
          rw [Dict.find?_set, Dict.find?_set, hab k hk]
        · rw [h2 b]; exact ih _ _ d h hab

/-- **C36.** Loading the rewritten file gives the written periods (as printed and parsed
back), and for every key that does not start with T the value it had before; a T-key that is
not among the periods can only come from an indented line. -/
theorem C36_reload {V : Type} (io : NumIO V) (content : Text) (mp d : Dict V) (back : V → V)
    (hc : content = [] ∨ content.getLast? = some '\n')
    (hload : loadText io content = .ok d)
    (hk : ∀ k ∈ mp.keys, Spec.KeyOK k)
    (hv : ∀ k v, mp.find? k = some v → Spec.ReadsBackAs io v (back v)) :
    ∃ d', loadText io (writePeriods io content mp) = .ok d' ∧
      (∀ k, k.toList.head? ≠ some 'T' → d'.find? k = d.find? k) ∧
      (∀ k v, k.toList.head? = some 'T' → mp.find? k = some v → d'.find? k = some (back v)) := by
  have hp : Spec.PeriodsPrintable io mp := by
    intro k v hf _
    refine ⟨fun h => ?_, fun h => ((hv k v hf).1 _ h).2.2 rfl⟩
    exact ((hk k ((Dict.has_iff_mem_keys _ _).1 ((Dict.has_iff_exists _ _).2 ⟨v, hf⟩))).2 _ h).2.2 rfl
  obtain ⟨e, he1, he2⟩ := load_filter_agree io (textLines content) [] [] d hload (fun _ _ => rfl)
  have hlines := (C36_file_lines io content mp hc hp).1
  have hper : ∀ (ks : List String) (acc : Dict V), (∀ k ∈ ks, k ∈ periodKeys mp) →
      ∃ d', (ks.map (parLine io mp)).foldlM (loadLine io) acc = .ok d' ∧
        (∀ k, k ∉ ks → d'.find? k = acc.find? k) ∧
        (∀ k v, k ∈ ks → mp.find? k = some v → d'.find? k = some (back v)) := by
    intro ks
    induction ks with
    | nil => intro acc _; exact ⟨acc, rfl, by simp, by simp⟩
    | cons k ks ih =>
      intro acc hks
      obtain ⟨hT, v, hf⟩ := (mem_periodKeys mp k).1 (hks k (by simp))
      have hmem : k ∈ mp.keys := (Dict.has_iff_mem_keys _ _).1 ((Dict.has_iff_exists _ _).2 ⟨v, hf⟩)
      have hm := assign_meaning io k v (back v) (hk k hmem) (hv k v hf)
      have hl : loadLine io acc (parLine io mp k) = .ok (Dict.set acc k (back v)) := by
        rw [parLine_eq_render io mp k v hf, loadLine_render io acc _ hm.2, hm.1]
      obtain ⟨d', h1, h2, h3⟩ := ih (Dict.set acc k (back v)) fun x hx => hks x (List.mem_cons_of_mem _ hx)
      refine ⟨d', ?_, ?_, ?_⟩
      · rw [List.map_cons, List.foldlM_cons, hl]; exact h1
      · intro x hx
        simp only [List.mem_cons, not_or] at hx
        rw [h2 x hx.2, Dict.find?_set_of_ne _ _ fun e => hx.1 e.symm]
      · intro x w hx hw
        by_cases hxs : x ∈ ks
        · exact h3 x w hxs hw
        · rcases List.mem_cons.1 hx with rfl | hx
          · rw [h2 x hxs]
            rw [hf] at hw
            injection hw with hw
            subst hw
            simp
          · exact absurd hx hxs
  obtain ⟨d', h1, h2, h3⟩ := hper (periodKeys mp) e fun _ h => h
  refine ⟨d', ?_, ?_, ?_⟩
  · unfold loadText
    rw [hlines, List.foldlM_append, he1]
    exact h1
  · intro k hkT
    rw [h2 k fun h => hkT ((mem_periodKeys mp k).1 h).1, he2 k hkT]
  · intro k v hT hf
    exact h3 k v ((mem_periodKeys mp k).2 ⟨hT, v, hf⟩) hf

/-- **C36.** Without a final newline the first period is glued to the last line: the file
`w=1` with the period `T` becomes the single line `w=1T = 1`. -/
theorem C36_missing_final_newline :
    writePeriods toyIO ['w', '=', '1'] [("T", 1)] = ['w', '=', '1', 'T', ' ', '=', ' ', '1', '\n'] ∧
    loadText toyIO ['w', '=', '1'] = .ok [("w", 1)] ∧
    loadText toyIO (writePeriods toyIO ['w', '=', '1'] [("T", 1)]) = .error .valueError := by
  have h : writePeriods toyIO ['w', '=', '1'] [("T", 1)] = ['w', '=', '1', 'T', ' ', '=', ' ', '1', '\n'] := by
    simp [writePeriods, textLines, parLine, toyIO, sortKeys, Dict.keys, Dict.find?]
  refine ⟨h, rfl, ?_⟩
  rw [h]
  rfl

/-! ## C78 load_pendulum_mat_file -/

theorem find?_erase {V : Type} (d : Dict V) (k k' : String) :
    (Dict.erase d k).find? k' = if k = k' then none else d.find? k' := by
  unfold Dict.erase
  induction d with
  | nil => simp
  | cons e d ih =>
    obtain ⟨a, v⟩ := e
    by_cases h : a = k
    · subst h
      by_cases h2 : a = k'
      · subst h2; simp [List.filter_cons] at ih ⊢; exact ih
      · simp [List.filter_cons, Dict.find?, h2] at ih ⊢; exact ih
    · have hf : List.filter (fun e : String × V => decide (e.1 ≠ k)) ((a, v) :: d) =
          (a, v) :: List.filter (fun e : String × V => decide (e.1 ≠ k)) d := by simp [List.filter_cons, h]
      rw [hf, Dict.find?_cons, ih, Dict.find?_cons]
      by_cases h2 : a = k'
      · have : ¬ k = k' := fun e => h (h2.trans e.symm)
        simp [h2, this]
      · simp [h2]

/-- **C78.** After loading, the three MATLAB header entries are gone; if a time array is
present, sample rate and duration are gone too; empty notes became the empty string; every
other entry is as loaded. -/
theorem C78_mat_file_cleaned {V : Type} (isStr isEmptyArray : V → Bool) (emptyStr : V) (d d' : Dict V)
    (h : cleanMatData isStr isEmptyArray emptyStr d = .ok d') :
    (∀ k ∈ ["__globals__", "__header__", "__version__"], d'.find? k = none) ∧
    (d.has "time" = true → d'.find? "sampleRate" = none ∧ d'.find? "duration" = none) ∧
    (d.has "time" = false → d'.find? "sampleRate" = d.find? "sampleRate" ∧
      d'.find? "duration" = d.find? "duration") ∧
    (∃ n, d.find? "notes" = some n ∧ d'.find? "notes" =
      some (if isStr n = false ∧ isEmptyArray n = true then emptyStr else n)) ∧
    (∀ k ∉ ["__globals__", "__header__", "__version__", "notes", "sampleRate", "duration"],
      d'.find? k = d.find? k) := by
  unfold cleanMatData at h
  cases hr : Dict.require d ["__globals__", "__header__", "__version__", "notes"] with
  | error e => rw [hr] at h; cases h
  | ok _ =>
    rw [hr] at h
    simp only [Except.ok.injEq] at h
    have hk := (Dict.require_ok_iff _ _).1 hr
    obtain ⟨n, hn⟩ := (Dict.has_iff_exists _ _).1 (hk "notes" (by simp))
    set d1 := Dict.erase (Dict.erase (Dict.erase d "__globals__") "__header__") "__version__" with hd1
    have f1 : ∀ k, d1.find? k = if k = "__globals__" ∨ k = "__header__" ∨ k = "__version__" then none
        else d.find? k := by
      intro k
      rw [hd1, find?_erase, find?_erase, find?_erase]
      by_cases a : k = "__version__"
      · subst a; simp
      by_cases b : k = "__header__"
      · subst b; simp
      by_cases c : k = "__globals__"
      · subst c; simp
      rw [if_neg fun e => a e.symm, if_neg fun e => b e.symm, if_neg fun e => c e.symm, if_neg]
      simp [a, b, c]
    have hn1 : d1.find? "notes" = some n := by rw [f1]; simp [hn]
    rw [hn1, Option.getD_some] at h
    set d2 := if (!isStr n && isEmptyArray n) = true then Dict.set d1 "notes" emptyStr else d1 with hd2
    have f2 : ∀ k, d2.find? k = if k = "notes" then
        some (if isStr n = false ∧ isEmptyArray n = true then emptyStr else n) else d1.find? k := by
      intro k
      rw [hd2]
      by_cases hcond : isStr n = false ∧ isEmptyArray n = true
      · rw [if_pos (by simp [hcond]), Dict.find?_set]
        by_cases hkn : k = "notes"
        · subst hkn; simp [hcond]
        · have : ¬ "notes" = k := fun e => hkn e.symm
          simp [hkn, this]
      · rw [if_neg (by simpa using hcond)]
        by_cases hkn : k = "notes"
        · subst hkn; simp [hcond, hn1]
        · simp [hkn]
    have ht : d2.has "time" = d.has "time" := by
      unfold Dict.has; rw [f2, f1]; simp
    have f3 : ∀ k, d'.find? k = if d.has "time" = true ∧ (k = "sampleRate" ∨ k = "duration") then none
        else d2.find? k := by
      intro k
      rw [← h, ht]
      by_cases htt : d.has "time" = true
      · rw [if_pos htt, find?_erase, find?_erase]
        by_cases a : k = "duration"
        · subst a; simp [htt]
        by_cases b : k = "sampleRate"
        · subst b; simp [htt]
        rw [if_neg fun e => a e.symm, if_neg fun e => b e.symm, if_neg]
        simp [a, b]
      · simp [htt]
    refine ⟨?_, ?_, ?_, ⟨n, hn, ?_⟩, ?_⟩
    · intro k hk
      simp only [List.mem_cons, List.not_mem_nil, or_false] at hk
      rcases hk with rfl | rfl | rfl <;> rw [f3, f2, f1] <;> simp
    · intro htt; exact ⟨by rw [f3]; simp [htt], by rw [f3]; simp [htt]⟩
    · intro htt; exact ⟨by rw [f3, f2, f1]; simp [htt], by rw [f3, f2, f1]; simp [htt]⟩
    · rw [f3, f2]; simp
    · intro k hk
      simp only [List.mem_cons, List.not_mem_nil, or_false, not_or] at hk
      rw [f3, f2, f1]
      simp [hk]

/-- non-vacuity of C78 -/
example : ∃ d', cleanMatData (fun n : ℕ => n == 0) (fun n => n == 1) 0
    [("__globals__", 5), ("__header__", 5), ("__version__", 5), ("notes", 1), ("time", 7), ("duration", 3)]
    = .ok d' := ⟨_, rfl⟩

end BP
