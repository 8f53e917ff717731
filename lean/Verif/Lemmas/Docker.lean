import Mathlib.Data.List.TakeWhile
import Verif.Spec.Docker

/-! # Lemmas on the searches in texts -/

namespace FastVPINNs

open Spec

lemma dropPrefix_iff (p cs r : List Char) : dropPrefix p cs = some r ↔ cs = p ++ r := by
  induction p generalizing cs with
  | nil => simp [dropPrefix]
  | cons a p ih =>
    cases cs with
    | nil => simp [dropPrefix]
    | cons c cs =>
      simp only [dropPrefix, List.cons_append, List.cons.injEq]
      by_cases h : a = c
      · simp [h, ih]
      · simp only [if_neg h]
        constructor
        · intro h'; cases h'
        · rintro ⟨rfl, -⟩
          exact absurd rfl h

lemma isDigit_iff (c : Char) : c.isDigit = true ↔ '0' ≤ c ∧ c ≤ '9' := by
  simp only [Char.isDigit, Bool.and_eq_true, decide_eq_true_eq]
  exact Iff.rfl

lemma takeWhile_eq_of {p : Char → Bool} {d r : List Char} (hd : ∀ c ∈ d, p c = true)
    (hr : ∀ c s, r = c :: s → p c = false) : (d ++ r).takeWhile p = d ∧ (d ++ r).dropWhile p = r := by
  induction d with
  | nil =>
    cases r with
    | nil => simp
    | cons c s => simp [hr c s rfl]
  | cons a d ih =>
    obtain ⟨h1, h2⟩ := ih fun c hc => hd c (List.mem_cons_of_mem _ hc)
    have := hd a (List.mem_cons_self)
    simp [this, h1, h2]

lemma dropWhile_first {p : Char → Bool} {cs : List Char} {c : Char} {s : List Char}
    (h : cs.dropWhile p = c :: s) : p c = false := by
  induction cs with
  | nil => simp at h
  | cons a cs ih =>
    by_cases ha : p a = true
    · rw [List.dropWhile_cons_of_pos ha] at h
      exact ih h
    · rw [List.dropWhile_cons_of_neg ha] at h
      cases h
      simpa using ha

lemma takeDigits_iff (cs d r : List Char) :
    takeDigits cs = some (d, r) ↔ cs = d ++ r ∧ Digits d ∧ NoDigitFirst r := by
  unfold takeDigits
  constructor
  · intro h
    have hsplit := List.takeWhile_append_dropWhile (p := Char.isDigit) (l := cs)
    have hall : ∀ c ∈ cs.takeWhile Char.isDigit, c.isDigit = true := fun c hc => List.mem_takeWhile_imp hc
    split at h
    · cases h
    · rename_i hne
      simp only [Option.some.injEq, Prod.mk.injEq] at h
      obtain ⟨rfl, rfl⟩ := h
      refine ⟨hsplit.symm, ⟨hne, fun c hc => (isDigit_iff c).1 (hall c hc)⟩, fun c s hcs hc => ?_⟩
      have := dropWhile_first hcs
      rw [(isDigit_iff c).2 hc] at this
      cases this
  · rintro ⟨rfl, ⟨h1, h2⟩, h3⟩
    obtain ⟨e1, e2⟩ := takeWhile_eq_of (p := Char.isDigit) (d := d) (r := r)
      (fun c hc => (isDigit_iff c).2 (h2 c hc)) (fun c s hs => by
        have := h3 c s hs
        rw [← isDigit_iff] at this
        simpa using this)
    rw [e1, e2]
    cases d with
    | nil => exact absurd rfl h1
    | cons a d => rfl

lemma matchVersion_iff (cs g : List Char) :
    matchVersion cs = some g ↔ VersionAt cs [] g := by
  unfold matchVersion VersionAt
  cases h : dropPrefix "version = \"".toList cs with
  | none =>
    simp only [reduceCtorEq, false_iff]
    rintro ⟨post, rfl, -⟩
    rw [List.nil_append, List.append_assoc, (dropPrefix_iff _ _ _).2 rfl] at h
    cases h
  | some r =>
    have hr := (dropPrefix_iff _ _ _).1 h
    subst hr
    have hsplit := List.takeWhile_append_dropWhile (p := (· != '"')) (l := r)
    simp only [List.nil_append, List.append_assoc, List.append_cancel_left_eq]
    constructor
    · intro h1
      split at h1
      · cases h1
      · rename_i tl h4 h5
        cases h1
        refine ⟨tl, ?_, h5, fun hq => ?_⟩
        · rw [← h4]
          exact hsplit.symm
        · have := List.mem_takeWhile_imp hq
          simp at this
      · cases h1
    · rintro ⟨post, rfl, h1, h2⟩
      obtain ⟨e1, e2⟩ := takeWhile_eq_of (p := (· != '"')) (d := g) (r := '"' :: post)
        (fun c hc => by
          have : c ≠ '"' := fun h => h2 (h ▸ hc)
          simpa using this) (fun c s hs => by cases hs; rfl)
      rw [e1, e2]
      cases g with
      | nil => exact absurd rfl h1
      | cons a g => rfl

lemma matchRelease_iff (cs : List Char) (x : List Char) :
    matchRelease cs = some x ↔ ∃ v, ReleaseAt cs [] v ∧ x = v.1 ++ '.' :: v.2 := by
  simp only [matchRelease, bind, Option.bind_eq_some_iff, pure, Option.some.injEq, Prod.exists]
  constructor
  · rintro ⟨r, h1, a, r1, h2, r2, h3, b, r3, h4, rfl⟩
    rw [dropPrefix_iff] at h1 h3
    rw [takeDigits_iff] at h2 h4
    obtain ⟨rfl, h5, h6⟩ := h2
    obtain ⟨rfl, h7, h8⟩ := h4
    subst h1 h3
    exact ⟨a, b, ⟨r3, by simp, h5, h7, h8⟩, rfl⟩
  · rintro ⟨a, b, ⟨post, rfl, h1, h2, h3⟩, rfl⟩
    refine ⟨a ++ '.' :: b ++ post, (dropPrefix_iff _ _ _).2 (by simp), a, '.' :: b ++ post,
      (takeDigits_iff _ _ _).2 ⟨by simp, h1, fun c r hc => by cases hc; decide⟩, b ++ post,
      (dropPrefix_iff _ _ _).2 (by simp), b, post, (takeDigits_iff _ _ _).2 ⟨rfl, h2, h3⟩, rfl⟩

lemma matchCudnn_iff (cs : List Char) (v : List Char × List Char × List Char) :
    matchCudnn cs = some v ↔ CudnnAt cs [] v := by
  obtain ⟨a, b, c⟩ := v
  simp only [matchCudnn, bind, Option.bind_eq_some_iff, pure, Option.some.injEq, Prod.exists, Prod.mk.injEq]
  constructor
  · rintro ⟨r, h1, a', r1, h2, r2, h3, b', r3, h4, r4, h5, c', r5, h6, rfl, rfl, rfl⟩
    rw [dropPrefix_iff] at h1 h3 h5
    rw [takeDigits_iff] at h2 h4 h6
    obtain ⟨rfl, k1, -⟩ := h2
    obtain ⟨rfl, k2, -⟩ := h4
    obtain ⟨rfl, k3, k4⟩ := h6
    subst h1 h3 h5
    exact ⟨r5, by simp, k1, k2, k3, k4⟩
  · rintro ⟨post, rfl, h1, h2, h3, h4⟩
    refine ⟨a ++ "\n#define CUDNN_MINOR ".toList ++ b ++ "\n#define CUDNN_PATCHLEVEL ".toList ++ c ++ post,
      (dropPrefix_iff _ _ _).2 (by simp), a,
      "\n#define CUDNN_MINOR ".toList ++ b ++ "\n#define CUDNN_PATCHLEVEL ".toList ++ c ++ post,
      (takeDigits_iff _ _ _).2 ⟨by simp, h1, fun c r hc => by cases hc; decide⟩,
      b ++ "\n#define CUDNN_PATCHLEVEL ".toList ++ c ++ post, (dropPrefix_iff _ _ _).2 (by simp), b,
      "\n#define CUDNN_PATCHLEVEL ".toList ++ c ++ post,
      (takeDigits_iff _ _ _).2 ⟨by simp, h2, fun c r hc => by cases hc; decide⟩, c ++ post,
      (dropPrefix_iff _ _ _).2 (by simp), c, post, (takeDigits_iff _ _ _).2 ⟨rfl, h3, h4⟩, rfl, rfl, rfl⟩

/-- `re.search` finds the first match. -/
lemma reSearch_iff {α : Type} (m : List Char → Option α) (text : List Char) (v : α) :
    reSearch m text = some v ↔ ∃ pre suf, text = pre ++ suf ∧ m suf = some v ∧
      ∀ pre' suf', text = pre' ++ suf' → pre'.length < pre.length → m suf' = none := by
  induction text with
  | nil =>
    simp only [reSearch]
    constructor
    · intro h
      exact ⟨[], [], rfl, h, fun _ _ _ h => absurd h (by simp)⟩
    · rintro ⟨pre, suf, h, h1, -⟩
      obtain ⟨-, rfl⟩ := List.append_eq_nil_iff.1 h.symm
      exact h1
  | cons c cs ih =>
    simp only [reSearch]
    cases h : m (c :: cs) with
    | some a =>
      simp only [Option.some.injEq]
      constructor
      · rintro rfl
        exact ⟨[], c :: cs, rfl, h, fun _ _ _ h => absurd h (by simp)⟩
      · rintro ⟨pre, suf, h1, h2, h3⟩
        cases pre with
        | nil =>
          simp only [List.nil_append] at h1
          subst h1
          rw [h] at h2
          exact Option.some.inj h2
        | cons a' pre =>
          have := h3 [] (c :: cs) rfl (by simp)
          rw [h] at this
          cases this
    | none =>
      simp only [ih]
      constructor
      · rintro ⟨pre, suf, rfl, h2, h3⟩
        refine ⟨c :: pre, suf, rfl, h2, fun pre' suf' h4 h5 => ?_⟩
        cases pre' with
        | nil =>
          simp only [List.nil_append] at h4
          rw [← h4]
          exact h
        | cons a pre' =>
          simp only [List.cons_append, List.cons.injEq] at h4
          exact h3 pre' suf' h4.2 (by simpa using h5)
      · rintro ⟨pre, suf, h1, h2, h3⟩
        cases pre with
        | nil =>
          simp only [List.nil_append] at h1
          rw [← h1, h] at h2
          cases h2
        | cons a pre =>
          simp only [List.cons_append, List.cons.injEq] at h1
          obtain ⟨rfl, rfl⟩ := h1
          refine ⟨pre, suf, rfl, h2, fun pre' suf' h4 h5 => h3 (c :: pre') suf' (by rw [h4]; rfl) (by simpa using h5)⟩

lemma reSearch_none_iff {α : Type} (m : List Char → Option α) (text : List Char) :
    reSearch m text = none ↔ ∀ pre suf, text = pre ++ suf → m suf = none := by
  induction text with
  | nil =>
    simp only [reSearch]
    constructor
    · intro h pre suf h1
      obtain ⟨-, rfl⟩ := List.append_eq_nil_iff.1 h1.symm
      exact h
    · intro h
      exact h [] [] rfl
  | cons c cs ih =>
    simp only [reSearch]
    cases h : m (c :: cs) with
    | some a =>
      simp only [reduceCtorEq, false_iff, not_forall]
      exact ⟨[], c :: cs, rfl, by rw [h]; simp⟩
    | none =>
      simp only [ih]
      constructor
      · intro h1 pre suf h2
        cases pre with
        | nil =>
          simp only [List.nil_append] at h2
          rw [← h2]
          exact h
        | cons a pre =>
          simp only [List.cons_append, List.cons.injEq] at h2
          exact h1 pre suf h2.2
      · intro h1 pre suf h2
        exact h1 (c :: pre) suf (by rw [h2]; rfl)

/-- A search for something that is recognised at the beginning of a text. -/
lemma search_first {α β : Type} (m : List Char → Option β) (g : α → β) (at_ : List Char → List Char → α → Prop)
    (hm : ∀ cs x, m cs = some x ↔ ∃ v, at_ cs [] v ∧ x = g v)
    (hat : ∀ text pre v, at_ text pre v ↔ ∃ suf, text = pre ++ suf ∧ at_ suf [] v) (text : List Char) (x : β) :
    (reSearch m text = some x ↔ ∃ v, First at_ text v ∧ x = g v) ∧
      (reSearch m text = none ↔ Nowhere at_ text) := by
  constructor
  · rw [reSearch_iff]
    constructor
    · rintro ⟨pre, suf, rfl, h1, h2⟩
      obtain ⟨v, hv, rfl⟩ := (hm _ _).1 h1
      refine ⟨v, ⟨pre, (hat _ _ _).2 ⟨suf, rfl, hv⟩, fun pre' v' h' => ?_⟩, rfl⟩
      by_contra hlt
      obtain ⟨suf', h3, h4⟩ := (hat _ _ _).1 h'
      have h5 := h2 pre' suf' h3 (by omega)
      rw [(hm _ _).2 ⟨v', h4, rfl⟩] at h5
      cases h5
    · rintro ⟨v, ⟨pre, h1, h2⟩, rfl⟩
      obtain ⟨suf, rfl, h3⟩ := (hat _ _ _).1 h1
      refine ⟨pre, suf, rfl, (hm _ _).2 ⟨v, h3, rfl⟩, fun pre' suf' h4 h5 => ?_⟩
      by_contra hne
      obtain ⟨y, hy⟩ := Option.ne_none_iff_exists'.1 hne
      obtain ⟨v', hv', -⟩ := (hm _ _).1 hy
      have := h2 pre' v' ((hat _ _ _).2 ⟨suf', h4, hv'⟩)
      omega
  · rw [reSearch_none_iff]
    constructor
    · intro h pre v hv
      obtain ⟨suf, h1, h2⟩ := (hat _ _ _).1 hv
      have := h pre suf h1
      rw [(hm _ _).2 ⟨v, h2, rfl⟩] at this
      cases this
    · intro h pre suf h1
      by_contra hne
      obtain ⟨y, hy⟩ := Option.ne_none_iff_exists'.1 hne
      obtain ⟨v, hv, -⟩ := (hm _ _).1 hy
      exact h pre v ((hat _ _ _).2 ⟨suf, h1, hv⟩)

lemma search_version (text g : List Char) :
    (reSearch matchVersion text = some g ↔ First VersionAt text g) ∧
      (reSearch matchVersion text = none ↔ Nowhere VersionAt text) := by
  have := search_first matchVersion id VersionAt (fun cs x => by rw [matchVersion_iff]; simp) (fun text pre v => by
    constructor
    · rintro ⟨post, rfl, h⟩
      exact ⟨"version = \"".toList ++ v ++ '"' :: post, by simp, post, by simp, h⟩
    · rintro ⟨_, rfl, post, rfl, h⟩
      exact ⟨post, by simp, h⟩) text g
  simpa using this

lemma search_release (text x : List Char) :
    (reSearch matchRelease text = some x ↔ ∃ v, First ReleaseAt text v ∧ x = v.1 ++ '.' :: v.2) ∧
      (reSearch matchRelease text = none ↔ Nowhere ReleaseAt text) :=
  search_first matchRelease (fun v => v.1 ++ '.' :: v.2) ReleaseAt (fun cs x => matchRelease_iff cs x)
    (fun text pre v => by
      constructor
      · rintro ⟨post, rfl, h⟩
        exact ⟨"release ".toList ++ v.1 ++ '.' :: v.2 ++ post, by simp, post, by simp, h⟩
      · rintro ⟨_, rfl, post, rfl, h⟩
        exact ⟨post, by simp, h⟩) text x

lemma search_cudnn (text : List Char) (v : List Char × List Char × List Char) :
    (reSearch matchCudnn text = some v ↔ First CudnnAt text v) ∧
      (reSearch matchCudnn text = none ↔ Nowhere CudnnAt text) := by
  have := search_first matchCudnn id CudnnAt (fun cs x => by rw [matchCudnn_iff]; simp) (fun text pre v => by
    constructor
    · rintro ⟨post, rfl, h⟩
      exact ⟨"#define CUDNN_MAJOR ".toList ++ v.1 ++ "\n#define CUDNN_MINOR ".toList ++ v.2.1
        ++ "\n#define CUDNN_PATCHLEVEL ".toList ++ v.2.2 ++ post, by simp, post, by simp, h⟩
    · rintro ⟨_, rfl, post, rfl, h⟩
      exact ⟨post, by simp, h⟩) text v
  simpa using this

end FastVPINNs
