import Verif.Spec.StudyNan
import Verif.Props.Study
import Verif.Props.SpecialErrors

/-! # C112: diverging trials of a study -/

namespace FastVPINNs

open Spec

lemma le_iff (a b : XNum) : a.Le b ↔ ∃ x y, asEReal a = some x ∧ asEReal b = some y ∧ x ≤ y := by
  rcases a with x | ⟨_ | _⟩ | _ <;> rcases b with y | ⟨_ | _⟩ | _ <;> simp [XNum.Le, asEReal]

lemma told_score (n : ℕ) (p : SearchPoint) (v : XNum) : score ⟨n, p, told v⟩ = asEReal v := by
  rcases v with x | s | _ <;> rfl

lemma told_none {v : XNum} : told v = none ↔ v = .nan := by
  rcases v with x | s | _ <;> simp [told]

lemma told_ne_nan (v : XNum) : told v ≠ some .nan := by
  rcases v with x | s | _ <;> simp [told]

/-- What holds while a study runs. -/
lemma xtuner_invariant {workers N : ℕ} {value : ℕ → SearchPoint → Except PyErr XNum → Prop}
    {earlier : List XStoredTrial} {s : XTunerState} (h : XTunerReachable workers N value earlier s) :
    earlier.length ≤ s.next ∧ s.next ≤ earlier.length + N ∧ (∀ r ∈ s.running, r.2.InSpace) ∧
    ∃ new, s.stored = earlier ++ new ∧
      (s.running.map Prod.fst ++ new.map XStoredTrial.number).Perm
        (List.range' earlier.length (s.next - earlier.length)) ∧
      ∀ t ∈ new, t.params.InSpace ∧ ∃ v, t.value = told v ∧ value t.number t.params (.ok v) := by
  induction h with
  | init => exact ⟨le_rfl, by simp, by simp, [], by simp, by simp, by simp⟩
  | step h hs ih =>
    obtain ⟨h1, h2, h3, new, h4, h5, h6⟩ := ih
    cases hs with
    | start p hw hn hp =>
      rename_i s
      refine ⟨by dsimp only; omega, by dsimp only; omega, ?_, new, h4, ?_, h6⟩
      · intro r hr
        rcases List.mem_cons.1 hr with rfl | hr
        · exact hp
        · exact h3 r hr
      · dsimp only
        rw [show s.next + 1 - earlier.length = (s.next - earlier.length) + 1 by omega, List.range'_concat]
        simp only [List.map_cons, List.cons_append]
        rw [show earlier.length + 1 * (s.next - earlier.length) = s.next by omega]
        refine (List.Perm.cons _ h5).trans ?_
        exact (List.perm_append_singleton _ _).symm
    | finish l l' t p v hr hv =>
      rename_i s
      refine ⟨h1, h2, ?_, new ++ [⟨t, p, told v⟩], ?_, ?_, ?_⟩
      · intro r hm
        refine h3 r ?_
        rw [hr]
        rcases List.mem_append.1 hm with hm | hm
        · exact List.mem_append_left _ hm
        · exact List.mem_append_right _ (List.mem_cons_of_mem _ hm)
      · simp [h4]
      · refine List.Perm.trans ?_ h5
        rw [hr]
        simp only [List.map_append, List.map_cons, List.map_nil, List.append_assoc, List.cons_append]
        refine List.Perm.append_left _ ?_
        rw [← List.append_assoc]
        exact List.perm_append_singleton _ _
      · intro q hq
        rcases List.mem_append.1 hq with hq | hq
        · exact h6 q hq
        · obtain rfl := List.mem_singleton.1 hq
          exact ⟨h3 (t, p) (by rw [hr]; simp), v, rfl, hv⟩

lemma xtuner_done {w N : ℕ} {value : ℕ → SearchPoint → Except PyErr XNum → Prop} {earlier : List XStoredTrial}
    {s : XTunerState} (hs : XTunerReachable w N value earlier s) (hr : s.running = [])
    (hn : s.next = earlier.length + N) : ∃ new, s.stored = earlier ++ new ∧ TrialsOf value earlier new N ∧
      ∀ t ∈ new, ∃ v, t.value = told v ∧ value t.number t.params (.ok v) := by
  obtain ⟨-, -, -, new, h4, h5, h6⟩ := xtuner_invariant hs
  rw [hr, hn, show earlier.length + N - earlier.length = N by omega] at h5
  refine ⟨new, h4, ⟨by simpa using h5, fun t ht => (h6 t ht).1, fun t ht => ?_⟩, fun t ht => (h6 t ht).2⟩
  obtain ⟨-, v, hv, hv'⟩ := h6 t ht
  refine ⟨v, hv', ?_⟩
  rw [← told_score t.number t.params v, ← hv]

section
variable (gpus cpus : ℕ) (jobs nTrials : ℤ) (value : ℕ → SearchPoint → Except PyErr XNum → Prop)
  (earlier : List XStoredTrial)

/-- **C112** (the result).  Whatever the trials return, numbers, infinities or NaN, and whatever points Optuna suggests: if
`run` returns parameters, all trials have been run, and the parameters belong to a trial whose value is not NaN and is the
least of all values that are not NaN, those in the storage before included. -/
theorem C112_best (p : SearchPoint) (h : XTunerReturns gpus cpus jobs nTrials value earlier (.ok p)) :
    ∃ new, TrialsOf value earlier new nTrials.toNat ∧
      ∃ t ∈ earlier ++ new, ∃ x, t.params = p ∧ score t = some x ∧
        ∀ t' ∈ earlier ++ new, ∀ x', score t' = some x' → x ≤ x' := by
  generalize hres : (.ok p : Except PyErr SearchPoint) = res at h
  cases h with
  | pool | trial | noTrial => cases hres
  | @best w s t v hw hs hr hn hm hv hmin =>
    obtain ⟨new, h4, h5, -⟩ := xtuner_done hs hr hn
    rw [h4] at hm hmin
    obtain ⟨x, _, hx, -, -⟩ := (le_iff _ _).1 (hmin t hm v hv)
    refine ⟨new, h5, t, hm, x, (Except.ok.inj hres).symm, by rw [score, hv]; exact hx, fun t' ht' x' hx' => ?_⟩
    obtain ⟨v', hv', hx'⟩ := Option.bind_eq_some_iff.1 hx'
    obtain ⟨y, y', hy, hy', hle⟩ := (le_iff _ _).1 (hmin t' ht' v' hv')
    rw [hx] at hy
    rw [hx'] at hy'
    rw [Option.some.inj hy, Option.some.inj hy']
    exact hle

/-- **C112** (exceptions).  `run` ends with an exception only if the pool of workers cannot be created, if a trial raises
it, or if all trials, those in the storage before included, have failed or returned NaN: one NaN does not end the study. -/
theorem C112_exception (hearlier : ∀ t ∈ earlier, t.value ≠ some .nan) (e : PyErr)
    (h : XTunerReturns gpus cpus jobs nTrials value earlier (.error e)) :
    tunerWorkers gpus cpus jobs = .error e ∨ (∃ t p, earlier.length ≤ t ∧ t < earlier.length + nTrials.toNat ∧
      p.InSpace ∧ value t p (.error e)) ∨
    e = .valueError ∧ ∃ new, TrialsOf value earlier new nTrials.toNat ∧ (∀ t ∈ earlier ++ new, score t = none) ∧
      ∀ t ∈ new, value t.number t.params (.ok .nan) := by
  generalize hres : (.error e : Except PyErr SearchPoint) = res at h
  cases h with
  | pool hw =>
    obtain rfl := Except.error.inj hres
    exact .inl hw
  | @trial w s t p e' hw hs hm hv =>
    obtain rfl := Except.error.inj hres
    obtain ⟨h1, h2, h3, new, -, h5, -⟩ := xtuner_invariant hs
    have : t ∈ List.range' earlier.length (s.next - earlier.length) :=
      h5.mem_iff.1 (List.mem_append_left _ (List.mem_map.2 ⟨_, hm, rfl⟩))
    rw [List.mem_range'_1] at this
    exact .inr (.inl ⟨t, p, this.1, by omega, h3 _ hm, hv⟩)
  | noTrial hw hs hr hn hno =>
    obtain ⟨new, h4, h5, h6⟩ := xtuner_done hs hr hn
    rw [h4] at hno
    refine .inr (.inr ⟨Except.error.inj hres, new, h5, fun t ht => by rw [score, hno t ht]; rfl, fun t ht => ?_⟩)
    obtain ⟨v, hv, hv'⟩ := h6 t ht
    rw [hno t (List.mem_append_right _ ht)] at hv
    rwa [told_none.1 hv.symm] at hv'
  | best => cases hres

/-- **C112** (infinite values).  If the parameters returned belong to trials with the value `inf` only, no trial had a
finite value. -/
theorem C112_infinite (p : SearchPoint) (h : XTunerReturns gpus cpus jobs nTrials value earlier (.ok p)) :
    ∃ new, TrialsOf value earlier new nTrials.toNat ∧
      ((∃ t ∈ earlier ++ new, t.params = p ∧ ∃ x, score t = some x ∧ x < ⊤) ∨
        ∀ t ∈ earlier ++ new, score t = none ∨ score t = some ⊤) := by
  obtain ⟨new, h1, t, ht, x, hp, hx, hmin⟩ := C112_best gpus cpus jobs nTrials value earlier p h
  refine ⟨new, h1, ?_⟩
  rcases lt_or_eq_of_le (le_top : x ≤ ⊤) with hlt | rfl
  · exact .inl ⟨t, ht, hp, x, hx, hlt⟩
  · right
    intro t' ht'
    cases hs : score t' with
    | none => exact .inl rfl
    | some y => exact .inr (by rw [top_le_iff.1 (hmin t' ht' y hs)])

end

/-- **C112** (diverged trainings).  A trial whose network predicts NaN at a test point is stored as failed, so it does not
make its parameters the result. -/
theorem C112_diverged (u Ω : ℝ) (exact : List XNum) (predicted : ℕ → SearchPoint → List XNum → Prop)
    (fails : ℕ → SearchPoint → PyErr → Prop) (gpus cpus : ℕ) (jobs nTrials : ℤ) (earlier : List XStoredTrial)
    (p : SearchPoint)
    (h : XTunerReturns gpus cpus jobs nTrials (SpecialTrial u Ω exact predicted fails) earlier (.ok p)) :
    ∃ new, TrialsOf (SpecialTrial u Ω exact predicted fails) earlier new nTrials.toNat ∧
      (∀ t ∈ new, (∀ y, predicted t.number t.params y → .nan ∈ y) → score t = none) ∧
      ∃ t ∈ earlier ++ new, ∃ x, t.params = p ∧ score t = some x ∧
        (t ∈ new → ∃ y, predicted t.number t.params y ∧ .nan ∉ y) := by
  obtain ⟨new, h1, t, ht, x, hp, hx, -⟩ := C112_best gpus cpus jobs nTrials _ earlier p h
  refine ⟨new, h1, fun t' ht' hn => ?_, t, ht, x, hp, hx, fun htn => ?_⟩
  · obtain ⟨v, ⟨y, l2, linf, linfr, l1, l1r, hy, he⟩, hs⟩ := h1.values t' ht'
    rw [hs, (C93_errors_nan he (.inr (hn y hy))).2.2.1]
    rfl
  · obtain ⟨v, ⟨y, l2, linf, linfr, l1, l1r, hy, he⟩, hs⟩ := h1.values t htn
    refine ⟨y, hy, fun hn => ?_⟩
    rw [hs, (C93_errors_nan he (.inr hn)).2.2.1] at hx
    cases hx

/-! ## Existence -/

/-- From each state of a study, all trials can be completed. -/
lemma xtuner_completes {workers N : ℕ} (hw : 0 < workers) {value : ℕ → SearchPoint → Except PyErr XNum → Prop}
    (hv : ∀ t p, SearchPoint.InSpace p → ∃ v, value t p (.ok v)) {earlier : List XStoredTrial} {s : XTunerState}
    (h : XTunerReachable workers N value earlier s) :
    ∃ s', XTunerReachable workers N value earlier s' ∧ s'.running = [] ∧ s'.next = earlier.length + N := by
  obtain ⟨m, hm⟩ : ∃ m, 2 * (earlier.length + N - s.next) + s.running.length = m := ⟨_, rfl⟩
  induction m using Nat.strong_induction_on generalizing s with
  | _ m ih =>
    obtain ⟨h1, h2, h3, -⟩ := xtuner_invariant h
    rcases hr : s.running with _ | ⟨⟨t, p⟩, l⟩
    · by_cases hn : s.next < earlier.length + N
      · refine ih _ ?_ (h.step (XTunerStep.start demoSearchPoint (by rw [hr]; exact hw) hn demoSearchPoint_inSpace)) rfl
        simp only [hr, List.length_cons, List.length_nil] at hm ⊢
        omega
      · exact ⟨s, h, hr, by omega⟩
    · obtain ⟨v, hv⟩ := hv t p (h3 (t, p) (by rw [hr]; simp))
      refine ih _ ?_ (h.step (XTunerStep.finish [] l t p v (by rw [hr]; rfl) hv)) rfl
      simp only [hr, List.length_cons, List.nil_append] at hm ⊢
      omega

lemma score_some {t : XStoredTrial} (ht : t.value ≠ some .nan) {v : XNum} (hv : t.value = some v) :
    ∃ x, asEReal v = some x := by
  rcases v with x | ⟨_ | _⟩ | _
  · exact ⟨_, rfl⟩
  · exact ⟨_, rfl⟩
  · exact ⟨_, rfl⟩
  · exact absurd hv ht

lemma exists_least_of {α β : Type} [LinearOrder β] (f : α → β) : ∀ l : List α, l ≠ [] → ∃ a ∈ l, ∀ b ∈ l, f a ≤ f b
  | [], h => absurd rfl h
  | [a], _ => ⟨a, by simp, by simp⟩
  | a :: b :: l, _ => by
    obtain ⟨c, hc, hmin⟩ := exists_least_of f (b :: l) (by simp)
    rcases le_total (f a) (f c) with h | h
    · refine ⟨a, by simp, fun d hd => ?_⟩
      rcases List.mem_cons.1 hd with rfl | hd
      · exact le_rfl
      · exact h.trans (hmin d hd)
    · refine ⟨c, List.mem_cons_of_mem _ hc, fun d hd => ?_⟩
      rcases List.mem_cons.1 hd with rfl | hd
      · exact h
      · exact hmin d hd

/-- **C112** (a result exists).  If every trial ends with some value, the run can end; it then returns parameters or, if
there is no completed trial, ends with a `ValueError`. -/
theorem C112_ends (gpus cpus : ℕ) (hg : 0 < gpus) (nTrials : ℤ)
    (value : ℕ → SearchPoint → Except PyErr XNum → Prop) (hv : ∀ t p, SearchPoint.InSpace p → ∃ v, value t p (.ok v))
    (earlier : List XStoredTrial) (hearlier : ∀ t ∈ earlier, t.value ≠ some .nan) :
    ∃ res, XTunerReturns gpus cpus gpus nTrials value earlier res ∧
      ((∃ p, res = .ok p) ∨ res = .error .valueError ∧ ∀ t ∈ earlier, score t = none) := by
  obtain ⟨s, hs, hr, hnx⟩ := xtuner_completes hg hv
    (XTunerReachable.init (workers := gpus) (nTrials := nTrials.toNat) (value := value) (earlier := earlier))
  obtain ⟨new, h4, -, h6⟩ := xtuner_done hs hr hnx
  have hw := tunerWorkers_gpus gpus cpus hg
  have hstored : ∀ t ∈ s.stored, t.value ≠ some .nan := by
    intro t ht
    rw [h4] at ht
    rcases List.mem_append.1 ht with ht | ht
    · exact hearlier t ht
    · obtain ⟨v, hv, -⟩ := h6 t ht
      rw [hv]
      exact told_ne_nan v
  by_cases hall : ∀ t ∈ s.stored, t.value = none
  · exact ⟨_, .noTrial hw hs hr hnx hall, .inr ⟨rfl, fun t ht => by
      rw [score, hall t (by rw [h4]; exact List.mem_append_left _ ht)]; rfl⟩⟩
  · push Not at hall
    obtain ⟨t0, ht0, hv0⟩ := hall
    obtain ⟨v0, hv0⟩ := Option.ne_none_iff_exists'.1 hv0
    have hne : (s.stored.filterMap fun t => t.value.map fun v => (t, v)) ≠ [] := by
      intro h
      rw [List.filterMap_eq_nil_iff] at h
      have := h t0 ht0
      simp [hv0] at this
    obtain ⟨b, hb, hmin⟩ := exists_least_of (fun q : XStoredTrial × XNum => (asEReal q.2).getD ⊤) _ hne
    obtain ⟨t, ht, hb⟩ := List.mem_filterMap.1 hb
    obtain ⟨v, hv, rfl⟩ := Option.map_eq_some_iff.1 hb
    refine ⟨_, .best hw hs hr hnx ht hv fun t' ht' v' hv' => ?_, .inl ⟨_, rfl⟩⟩
    obtain ⟨x, hx⟩ := score_some (hstored t ht) hv
    obtain ⟨x', hx'⟩ := score_some (hstored t' ht') hv'
    have := hmin (t', v') (List.mem_filterMap.2 ⟨t', ht', by simp [hv']⟩)
    simp only [hx, hx', Option.getD_some] at this
    exact (le_iff _ _).2 ⟨x, x', hx, hx', this⟩

/-- **C112** (all trials diverge).  If no trial in the storage has a value and every trial of the run returns NaN, the run
ends with a `ValueError`, and it cannot end otherwise. -/
theorem C112_all_nan (gpus cpus : ℕ) (hg : 0 < gpus) (nTrials : ℤ)
    (value : ℕ → SearchPoint → Except PyErr XNum → Prop)
    (hv : ∀ t p, SearchPoint.InSpace p → ∀ r, value t p r ↔ r = .ok .nan) (earlier : List XStoredTrial)
    (hearlier : ∀ t ∈ earlier, t.value = none) (res : Except PyErr SearchPoint) :
    XTunerReturns gpus cpus gpus nTrials value earlier res ↔ res = .error .valueError := by
  have hn : ∀ t ∈ earlier, t.value ≠ some .nan := fun t ht => by rw [hearlier t ht]; simp
  have hno : ∀ p, ¬ XTunerReturns gpus cpus gpus nTrials value earlier (.ok p) := by
    intro p h
    obtain ⟨new, h1, t, ht, x, -, hx, -⟩ := C112_best _ _ _ _ _ _ p h
    rcases List.mem_append.1 ht with ht | ht
    · rw [score, hearlier t ht] at hx
      cases hx
    · obtain ⟨v, hv', hs⟩ := h1.values t ht
      rw [hv _ _ (h1.space t ht), Except.ok.injEq] at hv'
      rw [hs, hv'] at hx
      cases hx
  constructor
  · intro h
    rcases res with e | p
    · rcases C112_exception _ _ _ _ _ _ hn e h with h | ⟨t, p, -, -, hp, h⟩ | ⟨rfl, -⟩
      · rw [tunerWorkers_gpus gpus cpus hg] at h
        cases h
      · rw [hv t p hp] at h
        cases h
      · rfl
    · exact absurd h (hno p)
  · rintro rfl
    obtain ⟨res, h, ⟨p, rfl⟩ | ⟨rfl, -⟩⟩ := C112_ends gpus cpus hg nTrials value
      (fun t p hp => ⟨.nan, (hv t p hp _).2 rfl⟩) earlier hn
    · exact absurd h (hno p)
    · exact h

/-! ## Numbers only -/

/-- A trial of `Model/Study.lean`. -/
def Spec.numberTrial (t : StoredTrial) : XStoredTrial := ⟨t.number, t.params, t.value.map .fin⟩

/-- Its state of a study. -/
def numberState (s : TunerState) : XTunerState := ⟨s.running, s.stored.map numberTrial, s.next⟩

lemma told_fin (x : ℝ) : told (.fin x) = some (.fin x) := rfl

lemma number_reachable (w N : ℕ) (value : ℕ → SearchPoint → Except PyErr ℝ) (earlier : List StoredTrial)
    (s' : XTunerState) :
    XTunerReachable w N (fun t p r => r = (value t p).map .fin) (earlier.map numberTrial) s' ↔
      ∃ s, TunerReachable w N value earlier s ∧ s' = numberState s := by
  constructor
  · intro h
    induction h with
    | init => exact ⟨_, .init, by simp [numberState]⟩
    | step h hs ih =>
      obtain ⟨s, hr, rfl⟩ := ih
      rw [List.length_map] at hs
      cases hs with
      | start p h1 h2 h3 => exact ⟨_, hr.step (.start p h1 h2 h3), rfl⟩
      | finish l l' t p v h1 h2 =>
        cases hv : value t p with
        | error e => rw [hv] at h2; cases h2
        | ok x =>
          rw [hv] at h2
          obtain rfl := Except.ok.inj h2
          exact ⟨_, hr.step (.finish l l' t p x h1 hv), by simp [numberState, numberTrial, told_fin]⟩
  · rintro ⟨s, h, rfl⟩
    induction h with
    | init =>
      have := XTunerReachable.init (workers := w) (nTrials := N) (value := fun t p r => r = (value t p).map .fin)
        (earlier := earlier.map numberTrial)
      simpa [numberState] using this
    | step h hs ih =>
      refine ih.step ?_
      rw [List.length_map]
      cases hs with
      | start p h1 h2 h3 => exact .start (s := numberState _) p h1 h2 h3
      | finish l l' t p v h1 h2 =>
        have := XTunerStep.finish (workers := w) (last := earlier.length + N)
          (value := fun t p r => r = (value t p).map .fin) (s := numberState _) l l' t p (.fin v) h1 (by rw [h2]; rfl)
        simpa [numberState, numberTrial, told_fin] using this

/-- **C112** (numbers only).  For trials whose values are numbers this is the study of `Model/Study.lean` (C82). -/
theorem C112_numbers (gpus cpus : ℕ) (jobs nTrials : ℤ) (value : ℕ → SearchPoint → Except PyErr ℝ)
    (earlier : List StoredTrial) (res : Except PyErr SearchPoint) :
    XTunerReturns gpus cpus jobs nTrials (fun t p r => r = (value t p).map .fin) (earlier.map numberTrial) res ↔
      TunerReturns gpus cpus jobs nTrials value earlier res := by
  have hmem : ∀ (s : TunerState) t', t' ∈ (numberState s).stored ↔ ∃ t ∈ s.stored, numberTrial t = t' := by
    intro s t'
    simp [numberState]
  constructor
  · intro h
    cases h with
    | pool hw => exact .pool hw
    | @trial w s t p e hw hs hm hv =>
      obtain ⟨s, hs', rfl⟩ := (number_reachable _ _ _ _ _).1 hs
      refine .trial hw hs' hm ?_
      cases hv' : value t p with
      | error e' => rw [hv'] at hv; cases hv; rfl
      | ok x => rw [hv'] at hv; cases hv
    | noTrial hw hs hr hn hno =>
      obtain ⟨s, hs', rfl⟩ := (number_reachable _ _ _ _ _).1 hs
      rw [List.length_map] at hn
      refine .noTrial hw hs' hr hn fun t ht => ?_
      have := hno _ ((hmem s _).2 ⟨t, ht, rfl⟩)
      simpa [numberTrial] using this
    | best hw hs hr hn hm hv hmin =>
      obtain ⟨s, hs', rfl⟩ := (number_reachable _ _ _ _ _).1 hs
      rw [List.length_map] at hn
      obtain ⟨t, ht, rfl⟩ := (hmem s _).1 hm
      obtain ⟨x, hx, rfl⟩ := Option.map_eq_some_iff.1 hv
      exact .best hw hs' hr hn ht hx fun t' ht' v' hv' => hmin _ ((hmem s _).2 ⟨t', ht', rfl⟩) (.fin v') (by
        simp [numberTrial, hv'])
  · intro h
    cases h with
    | pool hw => exact .pool hw
    | trial hw hs hm hv =>
      exact .trial hw ((number_reachable _ _ _ _ _).2 ⟨_, hs, rfl⟩) hm (by rw [hv]; rfl)
    | noTrial hw hs hr hn hno =>
      refine .noTrial hw ((number_reachable _ _ _ _ _).2 ⟨_, hs, rfl⟩) hr (by rw [List.length_map]; exact hn) ?_
      intro t' ht'
      obtain ⟨t, ht, rfl⟩ := (hmem _ _).1 ht'
      simp [numberTrial, hno t ht]
    | @best w s t v hw hs hr hn hm hv hmin =>
      refine XTunerReturns.best (t := numberTrial t) (v := .fin v) hw ((number_reachable _ _ _ _ _).2 ⟨_, hs, rfl⟩) hr
        (by rw [List.length_map]; exact hn) ((hmem _ _).2 ⟨t, hm, rfl⟩) (by simp [numberTrial, hv]) ?_
      intro t' ht' v' hv'
      obtain ⟨t₀, ht₀, rfl⟩ := (hmem _ _).1 ht'
      obtain ⟨x, hx, rfl⟩ := Option.map_eq_some_iff.1 hv'
      exact hmin t₀ ht₀ x hx

/-! ## The hypotheses can be met -/

/-- A study with two GPUs whose trials with odd numbers diverge: it returns parameters, and only those of an even trial
or of an earlier one. -/
example (earlier : List XStoredTrial) (hearlier : ∀ t ∈ earlier, t.value ≠ some .nan) :
    let value : ℕ → SearchPoint → Except PyErr XNum → Prop := fun t p r =>
      SpecialTrial (1 / 8) 1000 [.fin 1, .fin 2] (fun t _ y => y = if t % 2 = 1 then [.nan, .fin 2] else [.fin 1, .fin 3])
        (fun _ _ _ => False) t p r
    (∃ res, XTunerReturns 2 4 (2 : ℕ) 5 value earlier res) ∧
      ∀ p, XTunerReturns 2 4 (2 : ℕ) 5 value earlier (.ok p) → ∃ new, TrialsOf value earlier new 5 ∧
        ∃ t ∈ earlier ++ new, t.params = p ∧ (t ∈ new → t.number % 2 = 0) := by
  intro value
  constructor
  · obtain ⟨res, h, -⟩ := C112_ends 2 4 (by norm_num) 5 value (fun t p _ => by
      obtain ⟨⟨l2, linf, l2r, linfr, l1, l1r⟩, h⟩ := (C93_errors_exist (ε := 1 / 8) (Ω := 1000) (by norm_num)
        [.fin 1, .fin 2] (if t % 2 = 1 then [.nan, .fin 2] else [.fin 1, .fin 3])).2
          ⟨by simp, by split_ifs <;> simp, by split_ifs <;> simp⟩
      exact ⟨l2r, _, l2, linf, linfr, l1, l1r, rfl, h⟩) earlier hearlier
    exact ⟨res, h⟩
  · intro p h
    obtain ⟨new, h1, -, t, ht, -, hp, -, h2⟩ := C112_diverged _ _ _ _ _ _ _ _ _ _ p h
    refine ⟨new, h1, t, ht, hp, fun hn => ?_⟩
    obtain ⟨y, rfl, hy⟩ := h2 hn
    by_contra h
    rw [if_pos (by omega)] at hy
    simp at hy

/-- All trials diverge: the hypotheses of `C112_all_nan`. -/
example : ∀ res, XTunerReturns 1 4 (1 : ℕ) 3 (fun _ _ r => r = .ok .nan) [] res ↔ res = .error .valueError :=
  C112_all_nan 1 4 (by norm_num) 3 _ (fun _ _ _ _ => Iff.rfl) [] (by simp)

/-- Two trials, with the values 1/2 and `inf`: the hypotheses of `C112_best` and `C112_infinite`. -/
example : ∃ p, XTunerReturns 1 4 (1 : ℕ) 2 (fun t _ r => r = .ok (if t = 0 then .inf false else .fin (1 / 2))) [] (.ok p) := by
  obtain ⟨res, h, ⟨p, rfl⟩ | ⟨rfl, -⟩⟩ := C112_ends 1 4 (by norm_num) 2
    (fun t _ r => r = .ok (if t = 0 then .inf false else .fin (1 / 2))) (fun t p _ => ⟨_, rfl⟩) [] (by simp)
  · exact ⟨p, h⟩
  · rcases C112_exception _ _ _ _ _ _ (by simp) _ h with h | ⟨t, p, -, -, -, h⟩ | ⟨-, new, h1, -, h2⟩
    · cases h
    · cases h
    · have hl := h1.numbers.length_eq
      rw [List.length_map, List.length_range'] at hl
      rcases new with _ | ⟨t, l⟩
      · simp at hl
      · have := h2 t (by simp)
        split_ifs at this <;> cases this

end FastVPINNs
