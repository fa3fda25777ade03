import Verif.Props.Quality
import Verif.Props.Result

/-! # Where the MOS comes from (C68) -/

set_option linter.unusedSectionVars false

namespace Visqol

section
variable {F : Type} [Flt F] [RustFft F]

/-- C68, fullband: the regression model is asked about exactly as many features as it has; the first ones are the reported
band similarities in single precision, the others are zero.  Its answer (0 if it has none) limited to 1..5 is the MOS unless
the extremes rule applies. -/
theorem C68_svr {p : Profile} {m m' : Manager F} {ref deg : AudioSignal F} {res : SimilarityResult F} {model : SvrModel F}
    (hm : m.mapper = .svr model) (h : m.computeResults p ref deg = .ok (m', res)) :
    m.numBands ≤ model.numFeatures ∧ ∃ features label, model.predict features = some label ∧
      features.length = model.numFeatures ∧
      (∀ (i : Nat) v, res.fvnsim[i]? = some v → features[i]? = some (Flt.toF32 v)) ∧
      (∀ i : Nat, res.fvnsim.length ≤ i → i < model.numFeatures → features[i]? = some 0.0) ∧
      res.moslqo = if Flt.lt res.vnsim 0.15 then 1.0 else Flt.clamp (label.getD 0.0) 1.0 5.0 := by
  have hl := (C05_shapes h).1
  obtain ⟨al, lag, _, ⟨st⟩⟩ := computeResults_stages h
  obtain ⟨q, h1, h2⟩ := st.mos
  rw [hm] at h1
  obtain ⟨r, h3, h4⟩ := bind_ok h1
  unfold svrPredict at h3
  split at h3
  · cases h3
  rename_i hle
  obtain ⟨l, h5, h6⟩ := bind_ok h3
  cases h4
  cases h6
  have hle' : res.fvnsim.length ≤ model.numFeatures := by omega
  refine ⟨by omega, _, l, expect_ok h5, ?_, ?_, ?_, h2⟩
  · simp [resize]; omega
  · intro i v hv
    have hi : i < res.fvnsim.length := (List.getElem?_eq_some_iff.mp hv).1
    unfold resize
    rw [List.getElem?_append_left (by simp; omega), List.getElem?_take_of_lt (by omega), List.getElem?_map, hv]
    rfl
  · intro i h7 h8
    unfold resize
    rw [List.getElem?_append_right (by simp; omega)]
    rw [List.getElem?_replicate, if_pos (by simp; omega)]

/-- C68, fullband: a model with fewer features than bands never gives a score. -/
theorem C68_small_model {p : Profile} {m : Manager F} {ref deg : AudioSignal F} {model : SvrModel F}
    (hm : m.mapper = .svr model) (hs : model.numFeatures < m.numBands) {r : Manager F × SimilarityResult F} :
    m.computeResults p ref deg ≠ .ok r := by
  intro h
  have := (C68_svr hm (m' := r.1) (res := r.2) h).1
  omega

/-- C68: the MOS is a function of the reported band similarities: two comparisons with the same mapping that report the same
`fvnsim` report the same MOS, whatever the signals, the modes of operation and the build profiles. -/
theorem C68_same {p₁ p₂ : Profile} {m₁ m₁' m₂ m₂' : Manager F} {ref₁ deg₁ ref₂ deg₂ : AudioSignal F}
    {r₁ r₂ : SimilarityResult F} (hm : m₁.mapper = m₂.mapper)
    (h₁ : m₁.computeResults p₁ ref₁ deg₁ = .ok (m₁', r₁)) (h₂ : m₂.computeResults p₂ ref₂ deg₂ = .ok (m₂', r₂))
    (h : r₁.fvnsim = r₂.fvnsim) : r₁.moslqo = r₂.moslqo ∧ r₁.vnsim = r₂.vnsim := by
  obtain ⟨al, lag, _, ⟨st⟩⟩ := computeResults_stages h₁
  obtain ⟨al', lag', _, ⟨st'⟩⟩ := computeResults_stages h₂
  have hv : r₁.vnsim = r₂.vnsim := by
    have h3 := st.vn
    have h4 := st'.vn
    rw [h, h4] at h3
    exact (Option.some.inj h3).symm
  obtain ⟨q, h5, h6⟩ := st.mos
  obtain ⟨q', h7, h8⟩ := st'.mos
  rw [hm, h, h7] at h5
  cases h5
  exact ⟨by rw [h6, h8, hv], hv⟩

end

/-- C68, wideband: the MOS is the exponential fit of the reported `vnsim`, scaled if asked for, limited to 1..5, and 1 if
`vnsim` is below 0.15. -/
theorem C68_wideband {p : Profile} {s : Bool} {m m' : Manager ℝ} {ref deg : AudioSignal ℝ} {res : SimilarityResult ℝ}
    (hm : m.mapper = .speech s) (h : m.computeResults p ref deg = .ok (m', res)) :
    let fit : ℝ := 1155945.5 / 1000000 + Real.exp (4685115.3 / 1000000 * (res.vnsim - 765523.2 / 1000000))
    let scale : ℝ := if s then 1203140.9 / 1000000 else 1
    res.moslqo = if res.vnsim < 15 / 100 then 1 else max 1 (min 5 (fit * scale)) := by
  rw [moslqo_eq hm h]
  unfold widebandMos
  norm_num

end Visqol
