import Verif.Lemmas.Ieee

/-! # Ranges of reported numbers in floating point: C01, C10 -/

set_option linter.unusedSectionVars false

namespace Visqol
open Ieee
variable {F : Type} [Flt F] [Ieee F]

theorem clamp_val (x : F) : val (Flt.clamp x 1.0 5.0) = .nan ∨ ∃ y, val (Flt.clamp x 1.0 5.0) = .fin y ∧ 1 ≤ y ∧ y ≤ 5 := by
  unfold Flt.clamp
  simp only [lt_val, val_1, val_5]
  cases hx : val x with
  | nan =>
    left
    simp [Val.lt, hx]
  | inf s =>
    right
    cases s <;> simp [Val.lt, hx, val_1, val_5]
    all_goals norm_num
    all_goals norm_num [Val.lt, val_1]
  | fin y =>
    right
    by_cases h1 : y < 1
    · refine ⟨1, ?_, le_refl _, by norm_num⟩
      simp [Val.lt, h1, val_1]
    · by_cases h5 : 5 < y
      · exact ⟨5, by simp [Val.lt, h1, h5, hx, val_5], by norm_num, le_refl _⟩
      · exact ⟨y, by simp [Val.lt, h1, h5, hx], not_lt.mp h1, not_lt.mp h5⟩

theorem predict_val {q : QualityMapper F} {v : List F} {x : F} (h : q.predict v = .ok x) :
    val x = .nan ∨ ∃ y, val x = .fin y ∧ 1 ≤ y ∧ y ≤ 5 := by
  cases q with
  | speech s =>
    cases h
    exact clamp_val _
  | svr m =>
    obtain ⟨r, _, h⟩ := bind_ok h
    cases h
    exact clamp_val _

variable [RustFft F]

/-- C01: the reported MOS is NaN or a number from 1 to 5, for every quality mapper (in fullband mode: every SVR model), every state
of the manager and every pair of signals. -/
theorem C01_mos_range {p : Profile} {m m' : Manager F} {ref deg : AudioSignal F} {res : SimilarityResult F}
    (h : m.computeResults p ref deg = .ok (m', res)) :
    val res.moslqo = .nan ∨ ∃ x, val res.moslqo = .fin x ∧ 1 ≤ x ∧ x ≤ 5 := by
  obtain ⟨al, lag, _, ⟨st⟩⟩ := computeResults_stages h
  obtain ⟨q, h1, h2⟩ := st.mos
  rw [h2]
  unfold alterForSimilarityExtremes
  split
  · exact .inr ⟨1, val_1, le_refl _, by norm_num⟩
  · exact predict_val h1

/-- C01 for `run`. -/
theorem C01_run {p : Profile} {world : World F} {m m' : Manager F} {r d : String} {res : SimilarityResult F}
    (h : m.run p world r d = .ok (m', res)) :
    val res.moslqo = .nan ∨ ∃ x, val res.moslqo = .fin x ∧ 1 ≤ x ∧ x ≤ 5 := by
  obtain ⟨_, _, _, _, _, h⟩ := run_ok h
  exact C01_mos_range h

/-- C10 in floating point: no reported band deviation is a negative number or minus infinity. -/
theorem C10_not_negative {p : Profile} {m m' : Manager F} {ref deg : AudioSignal F} {res : SimilarityResult F}
    (h : m.computeResults p ref deg = .ok (m', res)) :
    ∀ a ∈ res.fstdnsim, val a = .nan ∨ val a = .inf false ∨ ∃ x, val a = .fin x ∧ 0 ≤ x := by
  obtain ⟨al, lag, _, ⟨st⟩⟩ := computeResults_stages h
  have := st.fstd
  unfold perPatchStdDevs at this
  obtain ⟨f, h1, this⟩ := bind_ok this
  obtain ⟨q, h2, this⟩ := bind_ok this
  obtain ⟨⟨c, t⟩, h3, this⟩ := bind_ok this
  injection this with this
  intro x hx
  rw [← this] at hx
  obtain ⟨e, _, rfl⟩ := List.mem_map.mp hx
  rw [lt_val, val_0]
  cases he : val e with
  | nan =>
    left
    simp [Val.lt, val_sqrt, he, Val.sqrt]
  | inf s =>
    right
    cases s
    · left; simp [Val.lt, val_sqrt, he, Val.sqrt]
    · right; exact ⟨0, by simp [Val.lt, val_0], le_refl _⟩
  | fin y =>
    by_cases hy : y < 0
    · exact .inr (.inr ⟨0, by simp [Val.lt, hy, val_0], le_refl _⟩)
    · have e1 : val (Flt.sqrt e) = rnd F (Real.sqrt y) := by rw [val_sqrt, he]; simp [Val.sqrt, hy]
      simp only [Val.lt, hy, decide_false, Bool.false_eq_true, if_false]
      rw [e1]
      rcases rnd_ge (F := F) 0.0 0 (Real.sqrt y) val_0 (Real.sqrt_nonneg _) with g | ⟨z, g1, g2⟩
      · exact .inr (.inl g)
      · exact .inr (.inr ⟨z, g1, g2⟩)

end Visqol
