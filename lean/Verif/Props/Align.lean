import Verif.Lemmas.Basic
import Verif.Model.Selector
import Verif.Num.Real
import Verif.Num.Dft
import Verif.Lemmas.RealCast

/-! # Alignment and slicing (C37, C38, C39) -/

set_option linter.unusedSectionVars false

namespace Visqol

section any
variable {F : Type} [Flt F] [RustFft F]

/-- C39: global alignment either returns the degraded signal with lag 0, or shifts it by a nonzero number of samples that is
at most half the reference length: by prepending zeros or by dropping leading samples. -/
theorem C39_only_shifts {p : Profile} {ref deg out : AudioSignal F} {t : F}
    (h : globallyAlign p ref deg = .ok (some (out, t))) :
    out.sampleRate = deg.sampleRate ∧
    ((out.data = deg.data ∧ t = 0.0) ∨ ∃ lag : Int, lag ≠ 0 ∧ lag.natAbs ≤ ref.data.length / 2 ∧
      t = Flt.ofInt lag / Flt.ofNat deg.sampleRate ∧
      ((lag < 0 ∧ lag.natAbs ≤ deg.data.length ∧ out.data = deg.data.drop lag.natAbs) ∨
        (0 < lag ∧ out.data = List.replicate lag.natAbs 0.0 ++ deg.data))) := by
  unfold globallyAlign at h
  obtain ⟨o1, _, h⟩ := bind_ok h
  cases o1 with
  | none => cases h
  | some renv =>
    obtain ⟨o2, _, h⟩ := bind_ok h
    cases o2 with
    | none => cases h
    | some denv =>
      obtain ⟨o3, _, h⟩ := bind_ok h
      cases o3 with
      | none => cases h
      | some lag =>
        dsimp only at h
        split at h
        · cases h; exact ⟨rfl, .inl ⟨rfl, rfl⟩⟩
        · rename_i hc
          split at h
          · obtain ⟨d, hd, h⟩ := bind_ok h
            cases h
            obtain ⟨h1, _, h3⟩ := sliceM_ok hd
            refine ⟨rfl, .inr ⟨lag, by omega, by omega, rfl, .inl ⟨by omega, h1, ?_⟩⟩⟩
            rw [h3, List.take_of_length_le (by simp)]
          · cases h
            refine ⟨rfl, .inr ⟨lag, by omega, by omega, rfl, .inr ⟨by omega, ?_⟩⟩⟩
            show List.replicate lag.toNat 0.0 ++ deg.data = _
            congr 2; omega

/-- The aligned signal is at most half a reference longer. -/
theorem globallyAlign_length {p : Profile} {ref deg out : AudioSignal F} {t : F}
    (h : globallyAlign p ref deg = .ok (some (out, t))) : out.data.length ≤ deg.data.length + ref.data.length / 2 := by
  obtain ⟨_, h | ⟨lag, _, h2, _, ⟨_, _, h⟩ | ⟨_, h⟩⟩⟩ := C39_only_shifts h
  · rw [h.1]; omega
  · rw [h, List.length_drop]; omega
  · rw [h, List.length_append, List.length_replicate]; omega

/-- C37: both returned segments are contiguous pieces of equal length, starting at the same position, of the reference and of
the shifted degraded signal; sample rates are preserved. -/
theorem C37_equal_length {p : Profile} {ref deg r d : AudioSignal F} {t : F} (hsr : ref.sampleRate = deg.sampleRate)
    (h : alignAndTruncate p ref deg = .ok (some (r, d, t))) :
    r.data.length = d.data.length ∧ r.sampleRate = ref.sampleRate ∧ d.sampleRate = deg.sampleRate ∧
    ∃ aligned off, globallyAlign p ref deg = .ok (some (aligned, t)) ∧ r.data = (ref.data.drop off).take r.data.length ∧
      d.data = (aligned.data.drop off).take r.data.length ∧
      off + r.data.length = min ref.data.length aligned.data.length ∧
      (off = 0 ∨ off = Flt.toUsize (t * Flt.ofNat ref.sampleRate)) := by
  unfold alignAndTruncate at h
  obtain ⟨o, h1, h⟩ := bind_ok h
  cases o with
  | none => cases h
  | some x =>
    obtain ⟨al, lag⟩ := x
    dsimp only at h
    split at h
    · rename_i hlt
      obtain ⟨r', hr, h⟩ := bind_ok h
      obtain ⟨d', hd, h⟩ := bind_ok h
      cases h
      have hl1 := sliceM_ok_length hr
      have hl2 := sliceM_ok_length hd
      obtain ⟨q1, _, e1⟩ := sliceM_ok hr
      obtain ⟨_, _, e2⟩ := sliceM_ok hd
      rw [← hsr] at hl2 e2
      refine ⟨?_, rfl, rfl, al, _, h1, ?_, ?_, ?_, .inr rfl⟩
      · dsimp only; rw [hl1, hl2]
      · dsimp only; rw [hl1]; exact e1
      · dsimp only; rw [hl1]; exact e2
      · dsimp only; rw [hl1]; omega
    · split at h
      · obtain ⟨r', hr, h⟩ := bind_ok h
        cases h
        have hl1 := sliceM_ok_length hr
        obtain ⟨_, _, e1⟩ := sliceM_ok hr
        refine ⟨by dsimp only; omega, rfl, rfl, al, 0, h1, ?_, ?_, by dsimp only; omega, .inl rfl⟩
        · dsimp only; rw [hl1]; exact e1
        · dsimp only; rw [hl1, List.drop_zero, List.take_of_length_le (by omega)]
      · cases h
        refine ⟨by dsimp only; omega, rfl, rfl, al, 0, h1, ?_, ?_, by dsimp only; omega, .inl rfl⟩
        · dsimp only; rw [List.drop_zero, List.take_length]
        · dsimp only; rw [List.drop_zero, List.take_of_length_le (by omega)]

end any

/-! ## C38: slicing -/

/-- C38: slicing by times (exact arithmetic).  The slice has `⌊end·fs⌋ - ⌊start·fs⌋` samples, sample `k` is the signal's
sample `⌊start·fs⌋ + k`, and samples past the end of the signal are 0. -/
theorem C38_slice (s : AudioSignal ℝ) {a b : ℝ} (ha : 0 ≤ a) (hab : a ≤ b)
    (hin : ⌊a * s.sampleRate⌋₊ ≤ s.data.length) (hb : b * s.sampleRate < 18446744073709551616) :
    ∃ d, sliceSignal s a b = .ok ⟨d, s.sampleRate⟩ ∧ d.length = ⌊b * s.sampleRate⌋₊ - ⌊a * s.sampleRate⌋₊ ∧
      ∀ k < d.length, d[k]? = some (s.data.getD (⌊a * s.sampleRate⌋₊ + k) 0) := by
  have hfs : (0 : ℝ) ≤ s.sampleRate := Nat.cast_nonneg _
  have hA : a * s.sampleRate ≤ b * s.sampleRate := mul_le_mul_of_nonneg_right hab hfs
  have hA0 : 0 ≤ a * s.sampleRate := mul_nonneg ha hfs
  have hB0 : 0 ≤ b * s.sampleRate := hA0.trans hA
  have e1 : Flt.toUsize (a * (Flt.ofNat s.sampleRate : ℝ)) = ⌊a * s.sampleRate⌋₊ := real_toUsize_floor hA0 (hA.trans_lt hb)
  have e2 : Flt.toUsize (b * (Flt.ofNat s.sampleRate : ℝ)) = ⌊b * s.sampleRate⌋₊ := real_toUsize_floor hB0 hb
  have hfl : ⌊a * s.sampleRate⌋₊ ≤ ⌊b * s.sampleRate⌋₊ := Nat.floor_le_floor hA
  have e3 : Flt.toUsize (b * (Flt.ofNat s.sampleRate : ℝ) - Flt.ofNat s.data.length) = ⌊b * s.sampleRate⌋₊ - s.data.length := by
    by_cases hc : b * s.sampleRate ≤ s.data.length
    · rw [real_toUsize_nonpos (by simpa using hc)]
      have : ⌊b * s.sampleRate⌋₊ ≤ s.data.length := Nat.floor_le_of_le hc
      omega
    · have hc := not_le.mp hc
      have := real_toUsize_floor (x := b * (Flt.ofNat s.sampleRate : ℝ) - Flt.ofNat s.data.length)
        (by simp only [real_ofNat]; linarith)
        (by simp only [real_ofNat]; have : (0 : ℝ) ≤ s.data.length := Nat.cast_nonneg _; linarith)
      rw [this]
      simp only [real_ofNat]
      exact Nat.floor_sub_natCast _ _
  have hneg : Flt.lt a (0.0 : ℝ) = false := by simp only [real_lt, real_lit0]; simpa using ha
  unfold sliceSignal
  dsimp only
  rw [e1, e2, e3, hneg, sliceM_of_le (by omega) (by omega)]
  simp only [ok_bind, Bool.false_eq_true, if_false]
  refine ⟨_, rfl, ?_, ?_⟩
  · split
    · rw [List.length_append, List.length_take, List.length_drop, List.length_replicate]; omega
    · rw [List.length_take, List.length_drop]; omega
  · intro k hk
    generalize ⌊a * s.sampleRate⌋₊ = A at *
    generalize ⌊b * s.sampleRate⌋₊ = B at *
    rw [List.getD_eq_getElem?_getD]
    split at hk
    · rename_i hex
      rw [if_pos hex]
      rw [List.length_append, List.length_take, List.length_drop, List.length_replicate] at hk
      by_cases hkl : k < min B s.data.length - A
      · rw [List.getElem?_append_left (by rw [List.length_take, List.length_drop]; omega), List.getElem?_take, if_pos hkl,
          List.getElem?_drop, List.getElem?_eq_getElem (by omega)]
        rfl
      · rw [List.getElem?_append_right (by rw [List.length_take, List.length_drop]; omega), List.getElem?_replicate,
          if_pos (by rw [List.length_take, List.length_drop]; omega), List.getElem?_eq_none (by omega), real_lit0]
        rfl
    · rename_i hex
      rw [if_neg hex]
      rw [List.length_take, List.length_drop] at hk
      rw [List.getElem?_take, if_pos (by omega), List.getElem?_drop, List.getElem?_eq_getElem (by omega)]
      rfl

/-- C37, exact arithmetic: either both segments start at position 0, or the degraded file lags behind: then its first samples
are paired with the reference from the lag on (the prepended zeros are cut away again). -/
theorem C37_exact {p : Profile} {ref deg r d : AudioSignal ℝ} {t : ℝ} (hsr : ref.sampleRate = deg.sampleRate)
    (h0 : 0 < ref.sampleRate) (hl : ref.data.length < 18446744073709551616)
    (h : alignAndTruncate p ref deg = .ok (some (r, d, t))) :
    (∃ aligned, globallyAlign p ref deg = .ok (some (aligned, t)) ∧ r.data = ref.data.take r.data.length ∧
      d.data = aligned.data.take r.data.length) ∨
    ∃ lag : Nat, 0 < lag ∧ lag ≤ ref.data.length / 2 ∧ t = lag / ref.sampleRate ∧
      r.data = (ref.data.drop lag).take r.data.length ∧ d.data = deg.data.take r.data.length := by
  obtain ⟨h1, _, _, al, off, h4, h5, h6, h7, h8⟩ := C37_equal_length hsr h
  by_cases hoff : off = 0
  · subst hoff
    exact .inl ⟨al, h4, by simpa using h5, by simpa using h6⟩
  · have h8 := h8.resolve_left hoff
    obtain ⟨_, ⟨_, ht⟩ | ⟨lag, hl0, hl1, ht, hc⟩⟩ := C39_only_shifts h4
    · exfalso
      rw [ht, real_lit0, zero_mul, real_toUsize_nonpos le_rfl] at h8
      exact hoff h8
    · have hne : (ref.sampleRate : ℝ) ≠ 0 := by positivity
      have e : t * (Flt.ofNat ref.sampleRate : ℝ) = lag := by
        rw [ht, ← hsr]; simp only [real_ofNat, real_ofInt]; field_simp
      rw [e] at h8
      rcases hc with ⟨hneg, _, _⟩ | ⟨hpos, hout⟩
      · exfalso
        rw [real_toUsize_nonpos (by exact_mod_cast hneg.le)] at h8
        exact hoff h8
      · have hlag : ((lag.natAbs : ℕ) : ℝ) = (lag : ℝ) := by
          rw [Nat.cast_natAbs, abs_of_pos hpos]
        have e2 : off = lag.natAbs := by
          rw [h8, ← hlag, real_toUsize_floor (by positivity), Nat.floor_natCast]
          have : lag.natAbs < 18446744073709551616 := by omega
          exact_mod_cast this
        refine .inr ⟨lag.natAbs, by omega, hl1, ?_, e2 ▸ h5, ?_⟩
        · rw [hlag, ht, ← hsr]; rfl
        · rw [h6, e2, hout, List.drop_left' (by simp)]

end Visqol
