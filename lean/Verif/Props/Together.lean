import Verif.Model.Together
import Verif.Props.Cut
import Verif.Props.Names

/-!
# C140: several programs at one file
-/

namespace BP

variable {ι : Type} [DecidableEq ι]

/-- The program has written all of its text. -/
def Spec.Finished (s : Shared ι) (i : ι) : Prop := ∃ out, s.phase i = .opened out out.length

/-- The program has not opened the file for writing. -/
def Spec.Waiting (s : Shared ι) (i : ι) : Prop := ∀ out pos, s.phase i ≠ .opened out pos

theorem overlay_next (T : Text) (n k : ℕ) (hn : n ≤ T.length) :
    overlay (T.take n) n ((T.drop n).take k) = T.take (n + ((T.drop n).take k).length) := by
  unfold overlay
  split
  · rename_i h
    rw [h]
    rfl
  · have h1 : (T.take n).length = n := by rw [List.length_take]; omega
    have h2 : (T.take n).take n = T.take n := by rw [List.take_take, Nat.min_self]
    have h3 : (T.take n).drop (n + ((T.drop n).take k).length) = [] := List.drop_of_length_le (by rw [h1]; omega)
    rw [h2, h3, h1, Nat.sub_self, List.take_add]
    simp only [List.replicate_zero, List.append_nil]
    refine congrArg _ ?_
    rw [List.length_take, List.take_eq_take_iff]
    omega

/-- **C140.** When one program writes the file, whoever reads it at any moment finds the old content or a beginning of
the new one, and the new one when the program has finished. -/
theorem C140_one_writer (rewrite : ι → Text → Text) (file : Text) (i : ι) (schedule : List (Act ι))
    (h : ∀ a ∈ schedule, a.who = i) :
    ((together rewrite file schedule).file = file ∨ (together rewrite file schedule).file <+: rewrite i file) ∧
    (Spec.Finished (together rewrite file schedule) i → (together rewrite file schedule).file = rewrite i file) := by
  have key : ∀ (schedule : List (Act ι)) (s : Shared ι), (∀ a ∈ schedule, a.who = i) →
      ((s.phase i = .away ∧ s.file = file) ∨ (s.phase i = .ready (rewrite i file) ∧ s.file = file) ∨
        ∃ n, s.phase i = .opened (rewrite i file) n ∧ n ≤ (rewrite i file).length ∧ s.file = (rewrite i file).take n) →
      let t := schedule.foldl (Shared.step rewrite) s
      ((t.phase i = .away ∧ t.file = file) ∨ (t.phase i = .ready (rewrite i file) ∧ t.file = file) ∨
        ∃ n, t.phase i = .opened (rewrite i file) n ∧ n ≤ (rewrite i file).length ∧ t.file = (rewrite i file).take n) := by
    intro schedule
    induction schedule with
    | nil => exact fun s _ h => h
    | cons a schedule ih =>
      intro s hw hs
      refine ih (s.step rewrite a) (fun a ha => hw a (List.mem_cons_of_mem _ ha)) ?_
      have hi : a.who = i := hw a (by simp)
      rcases hs with ⟨h1, h2⟩ | ⟨h1, h2⟩ | ⟨n, h1, h2, h3⟩
      · cases a with
        | look j =>
          have e : j = i := hi
          subst e
          right; left
          simp [Shared.step, h1, h2]
        | «open» j => have e : j = i := hi; subst e; left; simp [Shared.step, h1, h2]
        | flush j k => have e : j = i := hi; subst e; left; simp [Shared.step, h1, h2]
      · cases a with
        | look j => have e : j = i := hi; subst e; right; left; simp [Shared.step, h1, h2]
        | «open» j => have e : j = i := hi; subst e; right; right; exact ⟨0, by simp [Shared.step, h1]⟩
        | flush j k => have e : j = i := hi; subst e; right; left; simp [Shared.step, h1, h2]
      · right; right
        cases a with
        | look j => have e : j = i := hi; subst e; exact ⟨n, by simp [Shared.step, h1, h2, h3]⟩
        | «open» j => have e : j = i := hi; subst e; exact ⟨n, by simp [Shared.step, h1, h2, h3]⟩
        | flush j k =>
          have e : j = i := hi
          subst e
          refine ⟨n + (((rewrite j file).drop n).take k).length, ?_, ?_, ?_⟩
          · simp [Shared.step, h1]
          · simp; omega
          · simp only [Shared.step, h1, h3]
            exact overlay_next _ n k h2
  have := key schedule ⟨file, fun _ => .away⟩ h (Or.inl ⟨rfl, rfl⟩)
  rcases this with ⟨h1, h2⟩ | ⟨h1, h2⟩ | ⟨n, h1, h2, h3⟩
  · exact ⟨Or.inl h2, fun ⟨out, ho⟩ => by rw [together, h1] at ho; simp at ho⟩
  · exact ⟨Or.inl h2, fun ⟨out, ho⟩ => by rw [together, h1] at ho; simp at ho⟩
  · refine ⟨Or.inr (by rw [together, h3]; exact List.take_prefix _ _), fun ⟨out, ho⟩ => ?_⟩
    rw [together, h1] at ho
    injection ho with e1 e2
    rw [together, h3, e2, ← e1, List.take_length]

theorem overlay_length (f : Text) (q : ℕ) (s : Text) (m : ℕ) (h1 : f.length ≤ m) (h2 : q + s.length ≤ m) :
    (overlay f q s).length ≤ m := by
  unfold overlay
  split
  · exact h1
  · simp only [List.length_append, List.length_take, List.length_replicate, List.length_drop]
    omega

theorem overlay_get (f : Text) (q : ℕ) (s : Text) (j : ℕ) (hj : j < f.length ∨ (q ≤ f.length ∧ j < q + s.length)) :
    (overlay f q s)[j]? = if q ≤ j ∧ j < q + s.length then s[j - q]? else f[j]? := by
  unfold overlay
  split
  · rename_i h
    subst h
    rw [if_neg]
    simp
  · rename_i h
    have hs : 0 < s.length := List.length_pos_iff.2 h
    by_cases hq : j < q
    · rw [if_neg (by omega), List.append_assoc, List.append_assoc, List.getElem?_append_left (by
        rw [List.length_take]; omega), List.getElem?_take_of_lt hq]
    · have hql : q ≤ f.length := by omega
      have hz : q - f.length = 0 := by omega
      have ht : (f.take q).length = q := by rw [List.length_take]; omega
      rw [hz, List.replicate_zero, List.append_nil, List.append_assoc, List.getElem?_append_right (by rw [ht]; omega), ht]
      by_cases hs2 : j < q + s.length
      · rw [if_pos ⟨by omega, hs2⟩, List.getElem?_append_left (by omega)]
      · rw [if_neg (by omega), List.getElem?_append_right (by omega), List.getElem?_drop]
        congr 1
        omega

theorem overlay_longer (f : Text) (q : ℕ) (s : Text) (hq : q ≤ f.length ∨ s = []) :
    f.length ≤ (overlay f q s).length ∧ (q ≤ f.length → q + s.length ≤ (overlay f q s).length) := by
  unfold overlay
  split
  · rename_i h
    subst h
    exact ⟨le_rfl, fun h => h⟩
  · simp only [List.length_append, List.length_take, List.length_replicate, List.length_drop]
    omega

theorem overlay_grows (f : Text) (q : ℕ) (s : Text) : f.length ≤ (overlay f q s).length := by
  unfold overlay
  split
  · exact le_rfl
  · simp only [List.length_append, List.length_take, List.length_replicate, List.length_drop]
    omega

theorem piece_get (T : Text) (q k j : ℕ) (h : q ≤ j) (h2 : j < q + ((T.drop q).take k).length) :
    ((T.drop q).take k)[j - q]? = T[j]? := by
  rw [List.length_take] at h2
  rw [List.getElem?_take_of_lt (by omega), List.getElem?_drop]
  congr 1
  omega

/-- All programs at the file write the same text. -/
def Spec.Agreed (T : Text) (s : Shared ι) : Prop :=
  ∀ i, s.phase i = .away ∨ s.phase i = .ready T ∨ ∃ n, s.phase i = .opened T n ∧ n ≤ T.length

/-- Who opened the file last has left its text in it, as far as it has come. -/
def Spec.Leads (T : Text) (s : Shared ι) : Prop :=
  ∃ w n, s.phase w = .opened T n ∧ s.file.length ≤ T.length ∧ n ≤ s.file.length ∧ ∀ j, j < n → s.file[j]? = T[j]?

theorem agreed_step (rewrite : ι → Text → Text) (T : Text) (s : Shared ι) (a : Act ι) (h : Spec.Agreed T s)
    (hl : ∀ i, a = .look i → rewrite i s.file = T) : Spec.Agreed T (s.step rewrite a) := by
  intro j
  cases a with
  | look i =>
    rcases h i with h1 | h1 | ⟨n, h1, h2⟩
    · simp only [Shared.step, h1]
      by_cases e : j = i
      · subst e; right; left; simp [hl j rfl]
      · rw [Function.update_of_ne e]; exact h j
    · simp only [Shared.step, h1]; exact h j
    · simp only [Shared.step, h1]; exact h j
  | «open» i =>
    rcases h i with h1 | h1 | ⟨n, h1, h2⟩
    · simp only [Shared.step, h1]; exact h j
    · simp only [Shared.step, h1]
      by_cases e : j = i
      · subst e; right; right; exact ⟨0, by simp⟩
      · rw [Function.update_of_ne e]; exact h j
    · simp only [Shared.step, h1]; exact h j
  | flush i k =>
    rcases h i with h1 | h1 | ⟨n, h1, h2⟩
    · simp only [Shared.step, h1]; exact h j
    · simp only [Shared.step, h1]; exact h j
    · simp only [Shared.step, h1]
      by_cases e : j = i
      · subst e; right; right; refine ⟨_, by rw [Function.update_self], ?_⟩
        simp; omega
      · rw [Function.update_of_ne e]; exact h j

theorem leads_step (rewrite : ι → Text → Text) (T : Text) (s : Shared ι) (a : Act ι) (h : Spec.Agreed T s)
    (hw : Spec.Leads T s) : Spec.Leads T (s.step rewrite a) := by
  obtain ⟨w, n, w1, w2, w3, w4⟩ := hw
  cases a with
  | look i =>
    rcases h i with h1 | h1 | ⟨m, h1, h2⟩
    · refine ⟨w, n, ?_, ?_, ?_, ?_⟩ <;> simp only [Shared.step, h1]
      · rw [Function.update_of_ne (by rintro rfl; rw [w1] at h1; cases h1)]; exact w1
      · exact w2
      · exact w3
      · exact w4
    · simp only [Shared.step, h1]; exact ⟨w, n, w1, w2, w3, w4⟩
    · simp only [Shared.step, h1]; exact ⟨w, n, w1, w2, w3, w4⟩
  | «open» i =>
    rcases h i with h1 | h1 | ⟨m, h1, h2⟩
    · simp only [Shared.step, h1]; exact ⟨w, n, w1, w2, w3, w4⟩
    · simp only [Shared.step, h1]
      exact ⟨i, 0, by simp, by simp, by simp, by simp⟩
    · simp only [Shared.step, h1]; exact ⟨w, n, w1, w2, w3, w4⟩
  | flush i k =>
    rcases h i with h1 | h1 | ⟨m, h1, h2⟩
    · simp only [Shared.step, h1]; exact ⟨w, n, w1, w2, w3, w4⟩
    · simp only [Shared.step, h1]; exact ⟨w, n, w1, w2, w3, w4⟩
    · simp only [Shared.step, h1]
      generalize hp : (T.drop m).take k = piece
      have hlen : m + piece.length ≤ T.length := by rw [← hp, List.length_take, List.length_drop]; omega
      have hget : ∀ j, m ≤ j → j < m + piece.length → piece[j - m]? = T[j]? := by
        intro j e1 e2
        rw [← hp] at e2 ⊢
        exact piece_get T m k j e1 e2
      by_cases e : i = w
      · subst e
        rw [w1] at h1
        injection h1 with _ e2
        subst e2
        refine ⟨i, n + piece.length, by dsimp only; rw [Function.update_self], overlay_length _ _ _ _ w2 hlen,
          (overlay_longer _ _ _ (Or.inl w3)).2 w3, fun j hj => ?_⟩
        dsimp only
        rw [overlay_get _ _ _ _ (Or.inr ⟨w3, hj⟩)]
        split
        · rename_i e3
          exact hget j e3.1 e3.2
        · exact w4 j (by omega)
      · refine ⟨w, n, by dsimp only; rw [Function.update_of_ne (fun h => e h.symm)]; exact w1, overlay_length _ _ _ _ w2 hlen,
          w3.trans (overlay_grows _ _ _), fun j hj => ?_⟩
        dsimp only
        rw [overlay_get _ _ _ _ (Or.inl (by omega))]
        split
        · rename_i e3
          exact hget j e3.1 e3.2
        · exact w4 j hj

/-- Nobody has opened the file, or the one who opened it last leads. -/
def Spec.Led (T file : Text) (s : Shared ι) : Prop :=
  ((∀ i, Spec.Waiting s i) ∧ s.file = file) ∨ Spec.Leads T s

theorem led_step (rewrite : ι → Text → Text) (T file : Text) (s : Shared ι) (a : Act ι) (h : Spec.Agreed T s)
    (hl : Spec.Led T file s) : Spec.Led T file (s.step rewrite a) := by
  rcases hl with ⟨h1, h2⟩ | hl
  · cases a with
    | look i =>
      left
      rcases h i with e | e | ⟨n, e, -⟩
      · simp only [Shared.step, e]
        refine ⟨fun j => ?_, h2⟩
        intro out pos
        dsimp only
        by_cases ej : j = i
        · subst ej; simp
        · rw [Function.update_of_ne ej]; exact h1 j out pos
      · simp only [Shared.step, e]; exact ⟨h1, h2⟩
      · exact (h1 i _ _ e).elim
    | «open» i =>
      rcases h i with e | e | ⟨n, e, -⟩
      · left; simp only [Shared.step, e]; exact ⟨h1, h2⟩
      · right
        simp only [Shared.step, e]
        exact ⟨i, 0, by simp, by simp, by simp, by simp⟩
      · exact (h1 i _ _ e).elim
    | flush i k =>
      left
      rcases h i with e | e | ⟨n, e, -⟩
      · simp only [Shared.step, e]; exact ⟨h1, h2⟩
      · simp only [Shared.step, e]; exact ⟨h1, h2⟩
      · exact (h1 i _ _ e).elim
  · exact Or.inr (leads_step rewrite T s a h hl)

theorem led_steps (rewrite : ι → Text → Text) (T file : Text) (schedule : List (Act ι)) (s : Shared ι)
    (hw : ∀ a ∈ schedule, ∀ i, a = .look i → ∀ f, rewrite i f = T)
    (h : Spec.Agreed T s) (hl : Spec.Led T file s) :
    Spec.Agreed T (schedule.foldl (Shared.step rewrite) s) ∧ Spec.Led T file (schedule.foldl (Shared.step rewrite) s) := by
  induction schedule generalizing s with
  | nil => exact ⟨h, hl⟩
  | cons a schedule ih =>
    exact ih (s.step rewrite a) (fun a ha => hw a (List.mem_cons_of_mem _ ha))
      (agreed_step rewrite T s a h fun i e => hw a (by simp) i e _) (led_step rewrite T file s a h hl)

omit [DecidableEq ι] in
theorem led_end (T file : Text) (s : Shared ι) (hl : Spec.Led T file s)
    (hall : ∀ i, Spec.Waiting s i ∨ Spec.Finished s i) (i : ι) (hi : Spec.Finished s i) : s.file = T := by
  rcases hl with ⟨h1, -⟩ | ⟨w, n, w1, w2, w3, w4⟩
  · obtain ⟨out, ho⟩ := hi
    exact (h1 i _ _ ho).elim
  · rcases hall w with h | ⟨out, ho⟩
    · exact (h _ _ w1).elim
    · rw [w1] at ho
      injection ho with e1 e2
      subst e1
      refine List.ext_getElem? fun j => ?_
      by_cases hj : j < n
      · exact w4 j hj
      · rw [List.getElem?_eq_none (by omega), List.getElem?_eq_none (by omega)]

/-- **C140.** When all programs write the same text, whatever they found, then after any schedule in which each that opened
the file has finished, the file holds this text; while none has opened it, it is unchanged. -/
theorem C140_same_text (rewrite : ι → Text → Text) (file T : Text) (schedule : List (Act ι))
    (hT : ∀ i f, rewrite i f = T)
    (hall : ∀ i, Spec.Waiting (together rewrite file schedule) i ∨ Spec.Finished (together rewrite file schedule) i) :
    ((∀ i, Spec.Waiting (together rewrite file schedule) i) → (together rewrite file schedule).file = file) ∧
    ∀ i, Spec.Finished (together rewrite file schedule) i → (together rewrite file schedule).file = T := by
  have h := (led_steps rewrite T file schedule ⟨file, fun _ => .away⟩ (fun _ _ i _ f => hT i f) (fun _ => Or.inl rfl)
    (Or.inl ⟨fun _ _ _ => by simp, rfl⟩)).2
  refine ⟨fun hw => ?_, fun i hi => led_end T file _ h hall i hi⟩
  rcases h with ⟨-, h2⟩ | ⟨w, n, w1, -⟩
  · exact h2
  · exact (hw w _ _ w1).elim

/-- **C140.** When several programs rewrite the file in the same way (constructions of one bicycle that write its periods)
and all of them read it before the first one opens it for writing, then after any such schedule in which each that opened
it has finished, the file is as if one of them had rewritten it alone. -/
theorem C140_same_reads_partial (r : Text → Text) (file : Text) (looks rest : List (Act ι))
    (h1 : ∀ a ∈ looks, ∃ i, a = .look i) (h2 : ∀ a ∈ rest, ∀ i, a ≠ .look i)
    (hall : ∀ i, Spec.Waiting (together (fun _ => r) file (looks ++ rest)) i ∨
      Spec.Finished (together (fun _ => r) file (looks ++ rest)) i)
    (i : ι) (hi : Spec.Finished (together (fun _ => r) file (looks ++ rest)) i) :
    (together (fun _ => r) file (looks ++ rest)).file = r file := by
  have hlooks : ∀ (looks : List (Act ι)) (s : Shared ι), (∀ a ∈ looks, ∃ i, a = .look i) → s.file = file →
      Spec.Agreed (r file) s → Spec.Led (r file) file s →
      Spec.Agreed (r file) (looks.foldl (Shared.step fun _ => r) s) ∧
      Spec.Led (r file) file (looks.foldl (Shared.step fun _ => r) s) := by
    intro looks
    induction looks with
    | nil => exact fun s _ _ h h' => ⟨h, h'⟩
    | cons a looks ih =>
      intro s hl hf ha hb
      obtain ⟨i, rfl⟩ := hl a (by simp)
      refine ih _ (fun a ha => hl a (List.mem_cons_of_mem _ ha)) ?_ ?_ ?_
      · simp only [Shared.step]
        split <;> exact hf
      · exact agreed_step _ _ s _ ha fun j e => by rw [hf]
      · exact led_step _ _ _ s _ ha hb
  obtain ⟨ha, hb⟩ := hlooks looks ⟨file, fun _ => .away⟩ h1 rfl (fun _ => Or.inl rfl) (Or.inl ⟨fun _ _ _ => by simp, rfl⟩)
  have hc := (led_steps (fun _ => r) (r file) file rest _ (fun a ha i e => (h2 a ha i e).elim) ha hb).2
  rw [← List.foldl_append] at hc
  exact led_end (r file) file _ hc hall i hi

/-- **C140.** Who loads a parameter file while another program saves it, at any moment of any schedule: it gets what the
old file holds, or an error, or of the new values at most one wrong one, that of the next key in the alphabet. -/
theorem C140_reader_of_a_save {V : Type} (io : NumIO V) (d : Dict V) (back : V → V)
    (hn : d.keys.Nodup) (hk : ∀ k ∈ d.keys, Spec.KeyOK k)
    (hv : ∀ k v, d.find? k = some v → Spec.ReadsBackAs io v (back v))
    (file : Text) (i : ι) (schedule : List (Act ι)) (h : ∀ a ∈ schedule, a.who = i) (d' : Dict V)
    (hload : loadText io (together (fun _ _ => writeText io d) file schedule).file = .ok d') :
    loadText io file = .ok d' ∨
    ∃ done rest : List String, (done ++ rest).Perm d.keys ∧ (done ++ rest).Pairwise (· ≤ ·) ∧
      (∀ k ∈ done, d'.find? k = (d.find? k).map back) ∧
      ∀ k, k ∉ done → d'.find? k ≠ none → rest.head? = some k := by
  rcases (C140_one_writer (fun _ _ => writeText io d) file i schedule h).1 with e | e
  · left; rw [← e]; exact hload
  · right; exact C137_cut_anywhere io d back hn hk hv _ e d' hload

/-- **C140.** Two constructions of one bicycle at the same time can lose its measurements: the second reads the file after
the first has opened it for writing.  Both finish. -/
theorem C140_two_constructions_lose :
    let s := together (fun _ : Bool => fun content => writePeriods toyIO content [("T", 1)]) ['w', '=', '1', '\n']
      [.look true, .open true, .look false, .flush true 20, .open false, .flush false 20]
    Spec.Finished s true ∧ Spec.Finished s false ∧ s.file = ['T', ' ', '=', ' ', '1', '\n'] ∧
      writePeriods toyIO ['w', '=', '1', '\n'] [("T", 1)] = ['w', '=', '1', '\n', 'T', ' ', '=', ' ', '1', '\n'] := by
  have h1 : writePeriods toyIO ['w', '=', '1', '\n'] [("T", 1)] = ['w', '=', '1', '\n', 'T', ' ', '=', ' ', '1', '\n'] := by
    decide +kernel
  have h2 : writePeriods toyIO [] [("T", 1)] = ['T', ' ', '=', ' ', '1', '\n'] := by decide +kernel
  intro s
  have hs : s = ⟨['T', ' ', '=', ' ', '1', '\n'], fun b => if b then .opened ['w', '=', '1', '\n', 'T', ' ', '=', ' ', '1', '\n'] 10
      else .opened ['T', ' ', '=', ' ', '1', '\n'] 6⟩ := by
    simp only [s, together, List.foldl_cons, List.foldl_nil, Shared.step, Function.update_self, h1, h2, ne_eq,
      Bool.false_eq_true, Bool.true_eq_false, not_false_eq_true, Function.update_of_ne]
    refine congrArg₂ Shared.mk ?_ ?_
    · rfl
    · funext b
      cases b <;> rfl
  rw [hs]
  exact ⟨⟨_, rfl⟩, ⟨_, rfl⟩, rfl, h1⟩

/-- **C140.** Two saves of different values at the same time can spoil the file: both finish, and it loads no more. -/
theorem C140_two_saves_spoil :
    let s := together (fun b : Bool => fun _ => writeText toyIO [("w", if b then 3 else 1)]) []
      [.look true, .look false, .open true, .open false, .flush true 20, .flush false 20]
    Spec.Finished s true ∧ Spec.Finished s false ∧ loadText toyIO s.file = .error .indexError := by
  have h1 : writeText toyIO [("w", 3)] = ['w', ' ', '=', ' ', '1', '1', '1', '\n'] := by decide +kernel
  have h2 : writeText toyIO [("w", 1)] = ['w', ' ', '=', ' ', '1', '\n'] := by decide +kernel
  intro s
  have hs : s = ⟨['w', ' ', '=', ' ', '1', '\n', '1', '\n'], fun b => if b then .opened ['w', ' ', '=', ' ', '1', '1', '1', '\n'] 8
      else .opened ['w', ' ', '=', ' ', '1', '\n'] 6⟩ := by
    simp only [s, together, List.foldl_cons, List.foldl_nil, Shared.step, Function.update_self, h1, h2, ne_eq, if_true,
      Bool.false_eq_true, Bool.true_eq_false, not_false_eq_true, Function.update_of_ne, if_false]
    refine congrArg₂ Shared.mk ?_ ?_
    · rfl
    · funext b
      cases b <;> rfl
  rw [hs]
  exact ⟨⟨_, rfl⟩, ⟨_, rfl⟩, by decide +kernel⟩

/-- The hypotheses of the theorems about schedules can be met: two programs that write in turns, the second of which empties
the file when the first has written half. -/
example : ∃ looks rest : List (Act Bool), (∀ a ∈ looks, ∃ i, a = .look i) ∧ (∀ a ∈ rest, ∀ i, a ≠ .look i) ∧
    (∀ i, Spec.Finished (together (fun _ c => c ++ ['x', 'y']) ['w'] (looks ++ rest)) i) ∧
    (together (fun _ c => c ++ ['x', 'y']) ['w'] (looks ++ rest.take 4)).file = ['\x00', '\x00', 'y'] := by
  refine ⟨[.look true, .look false],
    [.open true, .flush true 2, .open false, .flush true 2, .flush false 1, .flush false 5], ?_, ?_, ?_, rfl⟩
  · intro a ha
    simp only [List.mem_cons, List.not_mem_nil, or_false] at ha
    rcases ha with rfl | rfl
    · exact ⟨_, rfl⟩
    · exact ⟨_, rfl⟩
  · intro a ha i
    simp only [List.mem_cons, List.not_mem_nil, or_false] at ha
    rcases ha with rfl | rfl | rfl | rfl | rfl | rfl <;> simp
  · intro i
    cases i <;> exact ⟨['w', 'x', 'y'], rfl⟩

/-- A program that is saving: its steps are its own, and the file that it left half written loads. -/
example : (∀ a ∈ [Act.look (), .open (), .flush () 7], a.who = ()) ∧
    (together (fun _ _ => writeText toyIO [("w", 3), ("c", 2)]) [] [Act.look (), .open (), .flush () 7]).file =
      ['c', ' ', '=', ' ', '1', '1', '\n'] ∧ loadText toyIO ['c', ' ', '=', ' ', '1', '1', '\n'] = .ok [("c", 2)] := by
  have h : writeText toyIO [("w", 3), ("c", 2)] =
      ['c', ' ', '=', ' ', '1', '1', '\n', 'w', ' ', '=', ' ', '1', '1', '1', '\n'] := by
    decide +kernel
  refine ⟨by simp, ?_, rfl⟩
  rw [h]
  rfl

end BP
