import Verif.Props.DriftRounded

/-! # Times of realigned patches in floating point (C38, C52) -/

set_option linter.unusedSectionVars false

namespace Visqol
open Ieee
variable {F : Type} [Flt F] [Ieee F]

/-- Rounding a time changes it by a tiny fraction of a sample. -/
theorem rnd_samples (F : Type) [Flt F] [Ieee F] {x s : ℝ} (h1 : 1 ≤ s) (h2 : s ≤ 4294967296) (hx : |x| * s ≤ 2 ^ 40) :
    ∃ y, rnd F x = .fin y ∧ |y - x| * s ≤ 1 / 4000 := by
  have hs : 0 < s := by linarith
  have h3 : |x| ≤ 2 ^ 40 := le_trans (le_mul_of_one_le_right (abs_nonneg _) h1) hx
  obtain ⟨y, hy, he⟩ := rnd_rel' F (h3.trans (two_pow_mono (by norm_num)))
  refine ⟨y, hy, ?_⟩
  have ht : (1 : ℝ) / 2 ^ 200 ≤ 1 / 2 ^ 100 := one_div_le_one_div_of_le (by positivity) (two_pow_mono (by norm_num))
  have h4 := mul_le_mul_of_nonneg_right (he.trans (add_le_add le_rfl ht)) hs.le
  have h5 : (|x| / 2 ^ 52 + 1 / 2 ^ 100) * s = |x| * s / 2 ^ 52 + s / 2 ^ 100 := by ring
  rw [h5] at h4
  have h6 : |x| * s / 2 ^ 52 ≤ 2 ^ 40 / 2 ^ 52 := by gcongr
  have h7 : s / 2 ^ 100 ≤ 4294967296 / 2 ^ 100 := by gcongr
  norm_num at h6 h7
  norm_num at h4
  linarith

/-- The length of a slice in floating point, from its success alone: the length of the interval in samples, up to one and a bit. -/
theorem sliceSignal_length_ieee {s out : AudioSignal F} {a b : F} {x y : ℝ} (h : sliceSignal s a b = .ok out)
    (ha : Is a x) (hb : Is b y) (hx : 0 ≤ x) (hxy : x ≤ y) (hu32 : s.sampleRate < 4294967296)
    (hy : y * s.sampleRate ≤ 2 ^ 38) (hl : s.data.length ≤ 2 ^ 38) :
    (out.data.length : ℝ) ≤ (y - x) * s.sampleRate + 1 + 1 / 1000 ∧ (y - x) * s.sampleRate - 1 - 1 / 1000 ≤ out.data.length ∧
      out.sampleRate = s.sampleRate := by
  unfold sliceSignal at h
  obtain ⟨d, hd, h⟩ := bind_ok h
  obtain ⟨h1, h2, _⟩ := sliceM_ok hd
  have h3 := sliceM_ok_length hd
  have hs0 : (0 : ℝ) ≤ s.sampleRate := Nat.cast_nonneg _
  have hfs : Is (Flt.ofNat s.sampleRate : F) s.sampleRate := val_nat (by omega)
  have hxs0 : 0 ≤ x * s.sampleRate := mul_nonneg hx hs0
  have hxs : x * s.sampleRate ≤ y * s.sampleRate := mul_le_mul_of_nonneg_right hxy hs0
  obtain ⟨u, hu, eu⟩ := rnd_samples F (x := x * s.sampleRate) (s := 1) le_rfl (by norm_num) (by
    rw [mul_one, abs_of_nonneg hxs0]; norm_num at hy ⊢; linarith)
  obtain ⟨v, hv, ev⟩ := rnd_samples F (x := y * s.sampleRate) (s := 1) le_rfl (by norm_num) (by
    rw [mul_one, abs_of_nonneg (hxs0.trans hxs)]; norm_num at hy ⊢; linarith)
  rw [mul_one] at eu ev
  have eu := abs_le.mp eu
  have ev := abs_le.mp ev
  have hu0 : 0 ≤ u := rnd_nonneg hu hxs0
  have hv0 : 0 ≤ v := rnd_nonneg hv (hxs0.trans hxs)
  have hiu : Is (a * Flt.ofNat s.sampleRate) u := (ha.mul hfs).trans hu
  have hiv : Is (b * Flt.ofNat s.sampleRate) v := (hb.mul hfs).trans hv
  have hub : u ≤ 2 ^ 39 := by have := eu.2; norm_num at hy ⊢; linarith
  have hvb : v ≤ 2 ^ 39 := by have := ev.2; norm_num at hy ⊢; linarith
  have eA := toUsize_fin hiu hu0 (by norm_num at hub; linarith)
  have eB := toUsize_fin hiv hv0 (by norm_num at hvb; linarith)
  have hlr : (s.data.length : ℝ) ≤ 274877906944 := by exact_mod_cast hl
  have hvb' : v ≤ 549755813888 := by norm_num at hvb; exact hvb
  have hil : Is (Flt.ofNat s.data.length : F) s.data.length := val_nat (by omega)
  obtain ⟨e, he, ee⟩ := rnd_samples F (x := v - s.data.length) (s := 1) le_rfl (by norm_num) (by
    rw [mul_one, abs_le]
    have : (0 : ℝ) ≤ s.data.length := Nat.cast_nonneg _
    norm_num only
    constructor <;> linarith only [this, hlr, hvb', hv0])
  rw [mul_one] at ee
  have ee := abs_le.mp ee
  have hie : Is (b * Flt.ofNat s.sampleRate - Flt.ofNat s.data.length) e := (hiv.sub hil).trans he
  have hlt : Flt.lt a (0.0 : F) = false := by
    rw [Is.lt ha (val_0 (F := F)), decide_eq_false_iff_not, not_lt]; exact hx
  dsimp only at h
  rw [hlt] at h
  simp only [Bool.false_eq_true, if_false] at h
  cases h
  refine (fun (H : _ ∧ _) => ⟨H.1, H.2, rfl⟩) ?_
  have eo : (if Flt.toUsize (b * Flt.ofNat s.sampleRate - Flt.ofNat s.data.length) > 0 then
      d ++ List.replicate (Flt.toUsize (b * Flt.ofNat s.sampleRate - Flt.ofNat s.data.length)) 0.0 else d).length =
      d.length + Flt.toUsize (b * Flt.ofNat s.sampleRate - Flt.ofNat s.data.length) := by
    split
    · rw [List.length_append, List.length_replicate]
    · omega
  dsimp only
  rw [eo, h3, Nat.cast_add, Nat.cast_sub h1]
  rw [eA, eB]
  have hAu := Nat.floor_le hu0
  have hAu2 := Nat.lt_floor_add_one u
  have hBv := Nat.floor_le hv0
  have hBv2 := Nat.lt_floor_add_one v
  have hd : (y - x) * s.sampleRate = y * s.sampleRate - x * s.sampleRate := sub_mul _ _ _
  by_cases hc : v ≤ s.data.length
  · have e0 : e ≤ 0 := rnd_upper (a := (0.0 : F)) val_0 he (by linarith)
    rw [toUsize_nonpos' hie e0]
    have hB : ⌊v⌋₊ ≤ s.data.length := by
      have : (⌊v⌋₊ : ℝ) ≤ s.data.length := hBv.trans hc
      exact_mod_cast this
    rw [min_eq_left hB, Nat.cast_zero]
    constructor <;> linarith [eu.1, eu.2, ev.1, ev.2]
  · have hc := not_le.mp hc
    have e0 : 0 ≤ e := rnd_nonneg he (by linarith)
    have hB : s.data.length ≤ ⌊v⌋₊ := Nat.le_floor hc.le
    rw [min_eq_right hB, toUsize_fin hie e0 (by linarith [ee.2])]
    have hE := Nat.floor_le e0
    have hE2 := Nat.lt_floor_add_one e
    constructor <;> linarith [eu.1, eu.2, ev.1, ev.2, ee.1, ee.2]

/-- C38 in floating point: if slicing succeeds for `0 ≤ start ≤ end`, then the slice has `(end - start)·fs` samples up to one and a bit,
and there is a first sample `A`, `start·fs` rounded down up to a thousandth of a sample, such that sample `k` of the slice is the
signal's sample `A + k`, and 0 past the end of the signal. -/
theorem C38_rounded {s out : AudioSignal F} {a b : F} {x y : ℝ} (h : sliceSignal s a b = .ok out)
    (ha : val a = .fin x) (hb : val b = .fin y) (hx : 0 ≤ x) (hxy : x ≤ y) (hu32 : s.sampleRate < 4294967296)
    (hy : y * s.sampleRate ≤ 2 ^ 38) (hl : s.data.length ≤ 2 ^ 38) :
    |(out.data.length : ℝ) - (y - x) * s.sampleRate| ≤ 1 + 1 / 1000 ∧ out.sampleRate = s.sampleRate ∧
      ∃ A : ℕ, (A : ℝ) ≤ x * s.sampleRate + 1 / 1000 ∧ x * s.sampleRate - 1 / 1000 < A + 1 ∧ A ≤ s.data.length ∧
      ∀ k < out.data.length, out.data[k]? = some (s.data.getD (A + k) 0.0) := by
  obtain ⟨l1, l2, l3⟩ := sliceSignal_length_ieee h ha hb hx hxy hu32 hy hl
  refine ⟨abs_le.mpr ⟨by linarith, by linarith⟩, l3, ?_⟩
  unfold sliceSignal at h
  obtain ⟨d, hd, h⟩ := bind_ok h
  obtain ⟨h1, h2, h4⟩ := sliceM_ok hd
  have h3 := sliceM_ok_length hd
  have hs0 : (0 : ℝ) ≤ s.sampleRate := Nat.cast_nonneg _
  have hfs : Is (Flt.ofNat s.sampleRate : F) s.sampleRate := val_nat (by omega)
  have hxs0 : 0 ≤ x * s.sampleRate := mul_nonneg hx hs0
  have hxs : x * s.sampleRate ≤ y * s.sampleRate := mul_le_mul_of_nonneg_right hxy hs0
  have hy' : y * s.sampleRate ≤ 274877906944 := by norm_num at hy; exact hy
  have near : ∀ t : ℝ, |t| ≤ 1099511627776 → ∃ u, rnd F t = .fin u ∧ |u - t| ≤ 1 / 4000 := by
    intro t ht
    obtain ⟨u, hu, eu⟩ := rnd_samples F (x := t) (s := 1) le_rfl (by norm_num) (by rw [mul_one]; norm_num only; exact ht)
    exact ⟨u, hu, by rwa [mul_one] at eu⟩
  obtain ⟨u, hu, eu⟩ := near (x * s.sampleRate) (by rw [abs_of_nonneg hxs0]; linarith only [hxs, hy'])
  obtain ⟨v, hv, ev⟩ := near (y * s.sampleRate) (by rw [abs_of_nonneg (hxs0.trans hxs)]; linarith only [hy'])
  have eu := abs_le.mp eu
  have ev := abs_le.mp ev
  have hu0 : 0 ≤ u := rnd_nonneg hu hxs0
  have hv0 : 0 ≤ v := rnd_nonneg hv (hxs0.trans hxs)
  have hiu : Is (a * Flt.ofNat s.sampleRate) u := (Is.mul ha hfs).trans hu
  have hiv : Is (b * Flt.ofNat s.sampleRate) v := (Is.mul hb hfs).trans hv
  have eA := toUsize_fin hiu hu0 (by linarith only [eu.2, hxs, hy'])
  have eB := toUsize_fin hiv hv0 (by linarith only [ev.2, hy'])
  have hlr : (s.data.length : ℝ) ≤ 274877906944 := by exact_mod_cast hl
  have hlr0 : (0 : ℝ) ≤ s.data.length := Nat.cast_nonneg _
  have hil : Is (Flt.ofNat s.data.length : F) s.data.length := val_nat (by omega)
  obtain ⟨e, he, _⟩ := near (v - s.data.length) (by rw [abs_le]; constructor <;> linarith only [ev.2, hv0, hlr, hlr0, hy'])
  have hie : Is (b * Flt.ofNat s.sampleRate - Flt.ofNat s.data.length) e := (hiv.sub hil).trans he
  have hlt : Flt.lt a (0.0 : F) = false := by
    rw [Is.lt ha (val_0 (F := F)), decide_eq_false_iff_not, not_lt]; exact hx
  dsimp only at h
  rw [hlt] at h
  simp only [Bool.false_eq_true, if_false] at h
  have h2' : Flt.toUsize (a * Flt.ofNat s.sampleRate : F) ≤ s.data.length := h1.trans (min_le_right _ _)
  refine ⟨Flt.toUsize (a * Flt.ofNat s.sampleRate : F), ?_, ?_, h2', ?_⟩
  · rw [eA]; linarith only [Nat.floor_le hu0, eu.2]
  · rw [eA]; linarith only [Nat.lt_floor_add_one u, eu.1]
  -- beyond the copied samples the slice is zero, and it goes beyond them only at the end of the signal
  have hext : 0 < Flt.toUsize (b * Flt.ofNat s.sampleRate - Flt.ofNat s.data.length : F) →
      min (Flt.toUsize (b * Flt.ofNat s.sampleRate : F)) s.data.length = s.data.length := by
    intro hpos
    refine min_eq_right ?_
    rw [eB]
    refine Nat.le_floor ?_
    by_contra hc
    have e0 : e ≤ 0 := rnd_upper (a := (0.0 : F)) val_0 he (by linarith)
    rw [toUsize_nonpos' hie e0] at hpos
    exact lt_irrefl _ hpos
  generalize Flt.toUsize (b * Flt.ofNat s.sampleRate - Flt.ofNat s.data.length : F) = ext at *
  generalize Flt.toUsize (a * Flt.ofNat s.sampleRate : F) = A at *
  generalize Flt.toUsize (b * Flt.ofNat s.sampleRate : F) = B at *
  cases h
  intro k hk
  dsimp only at hk ⊢
  have hin : ∀ k < d.length, d[k]? = some (s.data.getD (A + k) 0.0) := by
    intro k hk
    rw [h3] at hk
    rw [h4, List.getElem?_take_of_lt (by omega), List.getElem?_drop, List.getD_eq_getElem?_getD,
      List.getElem?_eq_getElem (by omega)]
    rfl
  split at hk <;> rename_i hc
  · rw [if_pos hc]
    rw [hext hc] at h3
    rw [List.length_append, List.length_replicate] at hk
    by_cases hkd : k < d.length
    · rw [List.getElem?_append_left hkd]; exact hin k hkd
    · rw [List.getElem?_append_right (by omega), List.getElem?_replicate, if_pos (by omega), List.getD_eq_getElem?_getD,
        List.getElem?_eq_none (by omega)]
      rfl
  · rw [if_neg hc]
    exact hin k hk

/-- The hypotheses of `C38_rounded`: the patch of 20 frames that starts at the first frame of a 48 kHz signal of 1000 samples, which it leaves. -/
example : ∃ (a b : B64) (x y : ℝ) (out : AudioSignal B64), sliceSignal ⟨List.replicate 1000 1.0, 48000⟩ a b = .ok out ∧
    val a = .fin x ∧ val b = .fin y ∧ 0 ≤ x ∧ x ≤ y ∧ y * (48000 : ℕ) ≤ 2 ^ 38 ∧ 1000 < y * (48000 : ℕ) := by
  obtain ⟨out, h, _⟩ := slice_patch' (F := B64) (s := ⟨List.replicate 1000 1.0, 48000⟩) (W := 3840) (o := 1) (k := 20) (by norm_num) (by norm_num)
    (by norm_num) (by norm_num) (by norm_num) (by norm_num) (by norm_num) (by rw [List.length_replicate]; norm_num) (by rw [List.length_replicate]; norm_num) rfl
  obtain ⟨_, ⟨_, x, hx, ex⟩, ⟨_, y, hy, ey⟩, _⟩ := frame_times (F := B64) (W := 3840) (sr := 48000) (o := 1) (k := 20) (by norm_num) (by norm_num)
    (by norm_num) (by norm_num) (by norm_num) (by norm_num) rfl
  have ex := abs_le.mp ex
  have ey := abs_le.mp ey
  norm_num at ex ey
  refine ⟨_, _, x, y, out, h, hx, hy, ?_, ?_, ?_, ?_⟩ <;> norm_num <;> linarith [ex.1, ex.2, ey.1, ey.2]

variable [RustFft F]

/-- C52, fine alignment in floating point: a patch is either unchanged, or its two reported intervals have the same length up to a
thousandth of a sample, at most (up to rounding) that of the interval before, and exactly one of its start times has moved, forward, by a
whole number of samples (up to a thousandth of a sample) that is at most half the patch. -/
theorem C52_fine_rounded {p : Profile} {nb : Nat} {ref deg : AudioSignal F} {w : AnalysisWindow F} {fb fb' : FilterBank F}
    {r r' : PatchSim F} {a b c : ℝ} (h : finelyAlignPatch p nb ref deg w fb r = .ok (fb', r'))
    (hsr : ref.sampleRate = deg.sampleRate) (h0 : 0 < ref.sampleRate) (hu32 : ref.sampleRate < 4294967296)
    (ha : val r.refStart = .fin a) (hb : val r.refEnd = .fin b) (hc : val r.degStart = .fin c) (ha0 : 0 ≤ a) (hab : a ≤ b) (hc0 : 0 ≤ c)
    (hbs : b * ref.sampleRate ≤ 2 ^ 37) (hcs : c * ref.sampleRate ≤ 2 ^ 37) (hl : ref.data.length ≤ 2 ^ 37) :
    r' = r ∨ ∃ a' b' c' d', val r'.refStart = .fin a' ∧ val r'.refEnd = .fin b' ∧ val r'.degStart = .fin c' ∧ val r'.degEnd = .fin d' ∧
      |(b' - a') - (d' - c')| * ref.sampleRate ≤ 1 / 1000 ∧
      ((w.size : ℝ) - 1 / 100 ≤ (b' - a') * ref.sampleRate ∧ (b' - a') * ref.sampleRate ≤ (b - a) * ref.sampleRate + 1 + 1 / 100) ∧
      ∃ lag : Nat, (lag : ℝ) ≤ ((b - a) * ref.sampleRate + 1 + 1 / 1000) / 2 ∧
        ((|a' - (a + lag / ref.sampleRate)| * ref.sampleRate ≤ 1 / 1000 ∧ c' = c) ∨
          (a' = a ∧ |c' - (c + lag / ref.sampleRate)| * ref.sampleRate ≤ 1 / 1000)) := by
  unfold finelyAlignPatch at h
  split at h
  · cases h; exact .inl rfl
  obtain ⟨ra, h1, h⟩ := bind_ok h
  obtain ⟨da, h2, h⟩ := bind_ok h
  obtain ⟨o, h3, h⟩ := bind_ok h
  cases o with
  | none => cases h
  | some t =>
  obtain ⟨raa, daa, lag⟩ := t
  obtain ⟨⟨fb1, rs⟩, hsp, h⟩ := bind_ok h
  have hws : (w.size : ℝ) ≤ raa.data.length := by exact_mod_cast (buildSpectrogram_ok hsp).1
  obtain ⟨⟨fb2, ds⟩, _, h⟩ := bind_ok h
  obtain ⟨⟨ma, mb⟩, _, h⟩ := bind_ok h
  obtain ⟨n, _, h⟩ := bind_ok h
  dsimp only at h
  split at h
  · cases h; exact .inl rfl
  right
  have hs0 : (0 : ℝ) < ref.sampleRate := by exact_mod_cast h0
  have hs1 : (1 : ℝ) ≤ ref.sampleRate := by exact_mod_cast h0
  have hs2 : (ref.sampleRate : ℝ) ≤ 4294967296 := by exact_mod_cast hu32.le
  have hs3 : Is (Flt.ofNat ref.sampleRate : F) ref.sampleRate := val_nat (by omega)
  have hms : ∀ x : ℝ, |x| * ref.sampleRate = |x * ref.sampleRate| := fun x => by rw [abs_mul, abs_of_pos hs0]
  have hbs' : b * ref.sampleRate ≤ 137438953472 := by norm_num at hbs; exact hbs
  have hcs' : c * ref.sampleRate ≤ 137438953472 := by norm_num at hcs; exact hcs
  have has0 : 0 ≤ a * ref.sampleRate := mul_nonneg ha0 hs0.le
  have hcs0 : 0 ≤ c * ref.sampleRate := mul_nonneg hc0 hs0.le
  have hasb : a * ref.sampleRate ≤ b * ref.sampleRate := mul_le_mul_of_nonneg_right hab hs0.le
  obtain ⟨l1, _, s1⟩ := sliceSignal_length_ieee h1 ha hb ha0 hab hu32 (by norm_num; linarith only [hbs']) (hl.trans (by norm_num))
  have s2 : da.sampleRate = deg.sampleRate := by
    unfold sliceSignal at h2
    obtain ⟨d, _, h2⟩ := bind_ok h2
    cases h2; rfl
  obtain ⟨g1, g2, g3, al, off, g4, _, _, g5, _⟩ := C37_equal_length (by rw [s1, s2, hsr]) h3
  have hdur : raa.duration = daa.duration := by
    unfold AudioSignal.duration
    rw [g1, g2, g3, s1, s2, hsr]
  have g6 : raa.data.length ≤ ra.data.length := by have := min_le_left ra.data.length al.data.length; omega
  rw [sub_mul] at l1
  have l2 : (ra.data.length : ℝ) ≤ 137438953474 := by linarith only [l1, has0, hbs']
  have l3 : ra.data.length ≤ 137438953474 := by exact_mod_cast l2
  have l4 : (raa.data.length : ℝ) ≤ ra.data.length := by exact_mod_cast g6
  -- the duration
  obtain ⟨D, hD, eD⟩ := rnd_samples F (x := (raa.data.length : ℝ) / ref.sampleRate) hs1 hs2 (by
    rw [abs_of_nonneg (by positivity), div_mul_cancel₀ _ hs0.ne']; norm_num only; linarith only [l2, l4])
  have hiD : Is raa.duration D := by
    unfold AudioSignal.duration
    rw [g2, s1]
    exact (Is.div (val_nat (by omega)) hs3 hs0.ne').trans hD
  have eD' : |D * ref.sampleRate - raa.data.length| ≤ 1 / 4000 := by
    rw [show D * ref.sampleRate - (raa.data.length : ℝ) = (D - raa.data.length / ref.sampleRate) * ref.sampleRate by
      rw [sub_mul, div_mul_cancel₀ _ hs0.ne'], abs_mul, abs_of_pos hs0]
    exact eD
  have eD' := abs_le.mp eD'
  have hDr0 : (0 : ℝ) ≤ raa.data.length := Nat.cast_nonneg _
  -- the lag
  obtain ⟨z, hz, y, hy, ey, ey2⟩ : ∃ z : Int, z.natAbs ≤ ra.data.length / 2 ∧ ∃ y, Is lag y ∧ |y - z / ref.sampleRate| * ref.sampleRate ≤ 1 / 4000 ∧
      (z = 0 → y = 0) := by
    obtain ⟨_, ⟨_, ht⟩ | ⟨z, hz0, hz, ht, _⟩⟩ := C39_only_shifts g4
    · exact ⟨0, by simp, 0, by rw [ht]; exact val_0, by simp, fun _ => rfl⟩
    · have hza : |z| ≤ 2 ^ 53 := by rw [Int.abs_eq_natAbs]; omega
      obtain ⟨y, hy, ey⟩ := rnd_samples F (x := (z : ℝ) / ref.sampleRate) hs1 hs2 (by
        rw [abs_div, abs_of_pos hs0, div_mul_cancel₀ _ hs0.ne']
        have h4 : |z| ≤ 1099511627776 := by rw [Int.abs_eq_natAbs]; omega
        have h5 : ((|z| : ℤ) : ℝ) ≤ 1099511627776 := by exact_mod_cast h4
        rw [Int.cast_abs] at h5
        norm_num only
        exact h5)
      have hzi : Is (Flt.ofInt z : F) z := by
        show val _ = _
        rw [val_ofInt, rnd_int F hza]
      refine ⟨z, hz, y, ?_, ey, fun h => absurd h hz0⟩
      rw [ht, s2, ← hsr]
      exact (Is.div hzi hs3 hs0.ne').trans hy
  have ey' : |y * ref.sampleRate - z| ≤ 1 / 4000 := by
    rw [show y * ref.sampleRate - (z : ℝ) = (y - z / ref.sampleRate) * ref.sampleRate by
      rw [sub_mul, div_mul_cancel₀ _ hs0.ne'], abs_mul, abs_of_pos hs0]
    exact ey
  have ey' := abs_le.mp ey'
  have hzl : ((z.natAbs : ℕ) : ℝ) ≤ ((b - a) * ref.sampleRate + 1 + 1 / 1000) / 2 := by
    have : 2 * z.natAbs ≤ ra.data.length := by omega
    have : 2 * ((z.natAbs : ℕ) : ℝ) ≤ ra.data.length := by exact_mod_cast this
    rw [sub_mul]
    linarith only [this, l1]
  have hzb : ((z.natAbs : ℕ) : ℝ) ≤ 137438953474 := by
    have : z.natAbs ≤ 137438953474 := by omega
    exact_mod_cast this
  -- the end of an interval
  have hend : ∀ (s : F) (u : ℝ), Is s u → |u| * ref.sampleRate ≤ 412316860416 → ∃ v, Is (s + raa.duration) v ∧
      |(v - u) * ref.sampleRate - D * ref.sampleRate| ≤ 1 / 4000 := by
    intro s u hs hus
    obtain ⟨v, hv, ev⟩ := rnd_samples F (x := u + D) hs1 hs2 (by
      have h4 := mul_le_mul_of_nonneg_right (abs_add_le u D) hs0.le
      have h5 : |D| * ref.sampleRate ≤ 137438953475 := by
        rw [hms, abs_le]
        constructor <;> linarith only [eD'.1, eD'.2, l2, l4, hDr0]
      rw [add_mul] at h4
      norm_num only
      linarith only [h4, h5, hus])
    refine ⟨v, (hs.add hiD).trans hv, ?_⟩
    rw [← sub_mul, abs_mul, abs_of_pos hs0, show v - u - D = v - (u + D) by ring]
    exact ev
  have hfin : ∀ (s t : F) (u v : ℝ), Is s u → Is t v → |u| * ref.sampleRate ≤ 412316860416 → |v| * ref.sampleRate ≤ 412316860416 →
      ∃ b' d', val (s + raa.duration) = .fin b' ∧ val (t + daa.duration) = .fin d' ∧
      |(b' - u) - (d' - v)| * ref.sampleRate ≤ 1 / 1000 ∧
      ((w.size : ℝ) - 1 / 100 ≤ (b' - u) * ref.sampleRate ∧ (b' - u) * ref.sampleRate ≤ (b - a) * ref.sampleRate + 1 + 1 / 100) := by
    intro s t u v hs ht hus hvs
    obtain ⟨b', hb', eb⟩ := hend s u hs hus
    obtain ⟨d', hd', ed⟩ := hend t v ht hvs
    have eb := abs_le.mp eb
    have ed := abs_le.mp ed
    refine ⟨b', d', hb', by rw [← hdur]; exact hd', ?_, ?_, ?_⟩
    · rw [hms, sub_mul, abs_le]
      constructor <;> linarith only [eb.1, eb.2, ed.1, ed.2]
    · linarith only [eb.1, eD'.1, hws]
    · rw [sub_mul b a]
      linarith only [eb.2, eD'.2, l4, l1]
  have hau : |a| * ref.sampleRate ≤ 412316860416 := by rw [abs_of_nonneg ha0]; linarith only [hasb, hbs']
  have hcu : |c| * ref.sampleRate ≤ 412316860416 := by rw [abs_of_nonneg hc0]; linarith only [hcs']
  have hlt := Is.lt (val_0 (F := F)) hy
  -- a start moved forward
  have hmove : ∀ u : ℝ, 0 ≤ u → u * ref.sampleRate ≤ 137438953472 → ∀ q : ℝ, |q * ref.sampleRate - (z.natAbs : ℕ)| ≤ 1 / 4000 → ∃ v, rnd F (u + q) = .fin v ∧
      |v - (u + (z.natAbs : ℕ) / ref.sampleRate)| * ref.sampleRate ≤ 1 / 1000 ∧ |v| * ref.sampleRate ≤ 412316860416 := by
    intro u hu hus q hq
    have hq := abs_le.mp hq
    have hu0 := mul_nonneg hu hs0.le
    have hz0 : (0 : ℝ) ≤ (z.natAbs : ℕ) := Nat.cast_nonneg _
    obtain ⟨v, hv, ev⟩ := rnd_samples F (x := u + q) hs1 hs2 (by
      rw [hms, abs_le, add_mul]
      norm_num only
      constructor <;> linarith only [hq.1, hq.2, hu0, hus, hzb, hz0])
    rw [hms, sub_mul, add_mul] at ev
    have ev := abs_le.mp ev
    refine ⟨v, hv, ?_, ?_⟩
    · rw [hms, sub_mul, add_mul, div_mul_cancel₀ _ hs0.ne', abs_le]
      constructor <;> linarith only [ev.1, ev.2, hq.1, hq.2]
    · rw [hms, abs_le]
      constructor <;> linarith only [ev.1, ev.2, hq.1, hq.2, hu0, hus, hzb, hz0]
  by_cases hpos : 0 < y
  · rw [hlt, decide_eq_true hpos] at h
    simp only [if_true] at h
    cases h
    have hz0 : 0 < z := by
      by_contra hcon
      rcases eq_or_lt_of_le (not_lt.mp hcon) with h4 | h4
      · rw [ey2 h4] at hpos; exact lt_irrefl _ hpos
      · have : (z : ℝ) ≤ -1 := by exact_mod_cast (show z ≤ -1 by omega)
        have := mul_pos hpos hs0
        linarith [ey'.2]
    have ez : ((z.natAbs : ℕ) : ℝ) = z := by rw [Nat.cast_natAbs, abs_of_pos hz0]
    obtain ⟨v, hv, ev, ev2⟩ := hmove a ha0 (hasb.trans hbs') y (by rw [ez, abs_le]; exact ey')
    have hiv : Is (r.refStart + lag) v := (Is.add ha hy).trans hv
    obtain ⟨b', d', q1, q2, q3, q4⟩ := hfin _ _ v c hiv hc ev2 hcu
    exact ⟨v, b', c, d', hiv, q1, hc, q2, q3, q4, z.natAbs, hzl, .inl ⟨ev, rfl⟩⟩
  · rw [hlt, decide_eq_false hpos] at h
    simp only [Bool.false_eq_true, if_false] at h
    cases h
    have hz0 : z ≤ 0 := by
      by_contra hcon
      have : (1 : ℝ) ≤ z := by exact_mod_cast (show 1 ≤ z by omega)
      have := mul_nonpos_of_nonpos_of_nonneg (not_lt.mp hpos) hs0.le
      linarith [ey'.1]
    have ez : ((z.natAbs : ℕ) : ℝ) = -z := by rw [Nat.cast_natAbs, abs_of_nonpos hz0]; push_cast; ring
    obtain ⟨v, hv, ev, ev2⟩ := hmove c hc0 hcs' (-y) (by rw [ez, abs_le]; constructor <;> linarith [ey'.1, ey'.2])
    have hiv : Is (r.degStart - lag) v := (Is.sub hc hy).trans (by rw [sub_eq_add_neg]; exact hv)
    obtain ⟨b', d', q1, q2, q3, q4⟩ := hfin _ _ a v ha hiv hau ev2
    exact ⟨a, b', v, d', ha, q1, hiv, q2, q3, q4, z.natAbs, hzl, .inr ⟨rfl, ev⟩⟩

/-- The times of a column and of the end of a patch that starts there, in samples. -/
theorem column_times {W sr P o : ℕ} (h0 : 0 < sr) (hu32 : sr < 4294967296) (h4 : 4 ≤ W) (hW2 : W ≤ 2 ^ 30) (hP0 : 0 < P)
    (hbp : P * W ≤ 2 ^ 36) (ho : o * W ≤ 2 ^ 35) :
    ∃ x y, Is (Flt.ofNat o * (Flt.ofNat W * 0.25 / Flt.ofNat sr) : F) x ∧
    Is (Flt.ofNat o * (Flt.ofNat W * 0.25 / Flt.ofNat sr) + Flt.ofNat W * 0.25 / Flt.ofNat sr * Flt.ofNat P : F) y ∧
    0 ≤ x ∧ x ≤ y ∧ |x * sr - o * W / 4| ≤ 1 / 1000 ∧ |y * sr - (o * W / 4 + P * W / 4)| ≤ 1 / 1000 := by
  have hs0 : (0 : ℝ) < sr := by exact_mod_cast h0
  have ho2 : o ≤ 2 ^ 42 := (Nat.le_mul_of_pos_right o (by omega : 0 < W)).trans (ho.trans (by norm_num))
  have hP2 : P ≤ 2 ^ 42 := (Nat.le_mul_of_pos_right P (by omega : 0 < W)).trans (hbp.trans (by norm_num))
  obtain ⟨_, t1, t2, _⟩ := frame_times (F := F) (W := W) (sr := sr) (o := o)
    (k := P) (by omega) (by omega) hu32 (by rw [Nat.add_mul]; omega) ho2 hP2 rfl
  obtain ⟨x, hx1, hx2⟩ := t1.scaled (c := (sr : ℝ)) hs0.le
  obtain ⟨y, hy1, hy2⟩ := t2.scaled (c := (sr : ℝ)) hs0.le
  obtain ⟨t10, x', hx', tx⟩ := t1
  obtain rfl : x = x' := by have := hx1.symm.trans hx'; cases this; rfl
  have q1 : ((o * W : ℕ) : ℝ) / (4 * sr : ℕ) * sr =
      o * W / 4 := by push_cast; field_simp
  have q2 : (((o + P) * W : ℕ) : ℝ) / (4 * sr : ℕ) * sr =
      o * W / 4 + P * W / 4 := by push_cast; field_simp
  rw [q1] at hx2
  rw [q2] at hy2
  have b1 : (o * W : ℝ) ≤ 34359738368 := by exact_mod_cast ho
  have b2 : (P * W : ℝ) ≤ 68719476736 := by exact_mod_cast hbp
  have b3 : (4 : ℝ) ≤ P * W := by
    have : 4 ≤ P * W := h4.trans (Nat.le_mul_of_pos_left W hP0)
    exact_mod_cast this
  have b4 : (0 : ℝ) ≤ (o : ℝ) * W := by positivity
  generalize (o : ℝ) * W = X at *
  generalize (P : ℝ) * W = Y at *
  have a1 : |x * sr - X / 4| ≤ 1 / 1000 := hx2.trans (by norm_num only; linarith only [b1])
  have a2 : |y * sr - (X / 4 + Y / 4)| ≤ 1 / 1000 := hy2.trans (by norm_num only; linarith only [b1, b2])
  have a3 := abs_le.mp a1
  have a4 := abs_le.mp a2
  refine ⟨x, y, hx1, hy1, ?_, ?_, a1, a2⟩
  · have := (abs_le.mp tx).1
    have h7 : (1 : ℝ) / 2 ^ 47 ≤ 1 := by norm_num
    nlinarith
  · refine le_of_mul_le_mul_right ?_ hs0
    linarith only [a3.2, a4.1, b3]

/-- C52 for whole comparisons in floating point: the times reported for patch `k` are finite; it starts at the time of its spectrogram
column or up to half a patch later, is at least one window (or one patch) and at most one patch long, and its match is equally long (all up to rounding, stated in samples). -/
theorem C52_rounded {p : Profile} {m m' : Manager F} {ref deg : AudioSignal F} {res : SimilarityResult F}
    (h : m.computeResults p ref deg = .ok (m', res)) (h50 : 50 ≤ ref.sampleRate) (hu32 : ref.sampleRate < 4294967296)
    (hsr : ref.sampleRate = deg.sampleRate) (hpp : 0 < m.patchCreator.patchSize)
    (hlen : ref.data.length + deg.data.length < 2147483648) :
    ∃ al lag, globallyAlign p ref deg = .ok (some (al, lag)) ∧
      ∃ st : Stages p m.numBands m.filterBank ref al (AnalysisWindow.mk' ref.sampleRate 0.25 0.08) m.patchCreator
        m.mapper m.searchWindow res, ∀ (k : Nat) r, res.patchSims[k]? = some r →
      ∃ i a b, st.ix[k]? = some i ∧ val r.refStart = .fin a ∧ val r.refEnd = .fin b ∧
        (i * windowSamples ref.sampleRate / 4 : ℝ) - 1 / 100 ≤ a * ref.sampleRate ∧
        a * ref.sampleRate ≤ i * windowSamples ref.sampleRate / 4 + m.patchCreator.patchSize * windowSamples ref.sampleRate / 8 + 1 ∧
        min (windowSamples ref.sampleRate : ℝ) (m.patchCreator.patchSize * windowSamples ref.sampleRate / 4) - 1 / 10 ≤ (b - a) * ref.sampleRate ∧
        (b - a) * ref.sampleRate ≤ m.patchCreator.patchSize * windowSamples ref.sampleRate / 4 + 1 + 1 / 10 ∧
        (Unmatched r ∨ ∃ c d, val r.degStart = .fin c ∧ val r.degEnd = .fin d ∧ -1 / 100 ≤ c * ref.sampleRate ∧
          |(b - a) - (d - c)| * ref.sampleRate ≤ 1 / 100) := by
  obtain ⟨f1, f2, f3⟩ := ieee_window_facts (F := F) h50 hu32
  obtain ⟨al, lag, hal, ⟨st⟩⟩ := computeResults_stages h
  refine ⟨al, lag, hal, st, fun k r' hr' => ?_⟩
  obtain ⟨w1, w2, _, _, h5, h6⟩ := st.shapes
  obtain ⟨c1, c2⟩ := createPatches_ok st.created w1
  have hlal := globallyAlign_length hal
  have hals := (C39_only_shifts hal).1
  rw [f1, f2] at h5 h6
  have hcr := @numColumns_le ref.data.length (windowSamples ref.sampleRate) (windowSamples ref.sampleRate / 4)
  have hcd := @numColumns_le al.data.length (windowSamples ref.sampleRate) (windowSamples ref.sampleRate / 4)
  obtain ⟨hfl, hf⟩ := finelyAlign_each st.fine
  have hk := (List.getElem?_eq_some_iff.mp hr').1
  rw [hfl] at hk
  obtain ⟨r, hr⟩ : ∃ r, st.coarse[k]? = some r := ⟨_, List.getElem?_eq_getElem hk⟩
  obtain ⟨f, f', r2, hp, hr2, _⟩ := hf k r hr
  rw [hr'] at hr2; cases hr2
  obtain ⟨e1, ⟨i, hi, e⟩, e3⟩ := C52_coarse_times st.found c1 (fun q hq => (c2 q hq).2.2) w2 (lt_usizeMod (by omega)) k r hr
  obtain ⟨g1, g2⟩ := createPatches_get st.created hi
  have hi' : i < st.refM.ncols := by omega
  rw [h5] at hi'
  have hW2 : windowSamples ref.sampleRate ≤ 2 ^ 30 := by unfold windowSamples; omega
  have hbi := column_bound hu32 f3 hi' (by omega)
  have hbp : m.patchCreator.patchSize * windowSamples ref.sampleRate ≤ 2 ^ 36 := by
    have := column_bound (i := m.patchCreator.patchSize - 1) hu32 f3 (by omega : _ < numColumns ref.data.length (windowSamples ref.sampleRate) (windowSamples ref.sampleRate / 4)) (by omega)
    have h2 : m.patchCreator.patchSize = m.patchCreator.patchSize - 1 + 1 := by omega
    rw [h2, Nat.add_mul]
    omega
  have hov : (AnalysisWindow.mk' (F := F) ref.sampleRate 0.25 0.08).overlap = 0.25 := rfl
  rw [f1, hov] at e e1 e3
  have hs0 : (0 : ℝ) < ref.sampleRate := by
    have : 0 < ref.sampleRate := by omega
    exact_mod_cast this
  obtain ⟨a, b, ha, hb, ha0, hab, ea, eb⟩ := column_times (F := F) (P := m.patchCreator.patchSize) (by omega : 0 < ref.sampleRate) hu32 f3 hW2 hpp hbp hbi
  rw [← e] at ha hb
  rw [← e1] at hb
  have ea := abs_le.mp ea
  have eb := abs_le.mp eb
  have b1 : (i * windowSamples ref.sampleRate : ℝ) ≤ 34359738368 := by exact_mod_cast hbi
  have b2 : (m.patchCreator.patchSize * windowSamples ref.sampleRate : ℝ) ≤ 68719476736 := by exact_mod_cast hbp
  have hba : (b - a) * ref.sampleRate = b * ref.sampleRate - a * ref.sampleRate := sub_mul _ _ _
  have hY0 : (0 : ℝ) ≤ m.patchCreator.patchSize * windowSamples ref.sampleRate := by positivity
  -- what holds if the patch is unchanged
  have hsame : (Unmatched r ∨ ∃ c d, val r.degStart = .fin c ∧ val r.degEnd = .fin d ∧ -1 / 100 ≤ c * ref.sampleRate ∧
          |(b - a) - (d - c)| * ref.sampleRate ≤ 1 / 100) → ∃ i a b, st.ix[k]? = some i ∧ val r.refStart = .fin a ∧ val r.refEnd = .fin b ∧
        (i * windowSamples ref.sampleRate / 4 : ℝ) - 1 / 100 ≤ a * ref.sampleRate ∧
        a * ref.sampleRate ≤ i * windowSamples ref.sampleRate / 4 + m.patchCreator.patchSize * windowSamples ref.sampleRate / 8 + 1 ∧
        min (windowSamples ref.sampleRate : ℝ) (m.patchCreator.patchSize * windowSamples ref.sampleRate / 4) - 1 / 10 ≤ (b - a) * ref.sampleRate ∧
        (b - a) * ref.sampleRate ≤ m.patchCreator.patchSize * windowSamples ref.sampleRate / 4 + 1 + 1 / 10 ∧
        (Unmatched r ∨ ∃ c d, val r.degStart = .fin c ∧ val r.degEnd = .fin d ∧ -1 / 100 ≤ c * ref.sampleRate ∧
          |(b - a) - (d - c)| * ref.sampleRate ≤ 1 / 100) := fun hq =>
    ⟨i, a, b, hi, ha, hb, by linarith only [ea.1], by linarith only [ea.2, hY0],
      (sub_le_sub_right (min_le_right _ _) _).trans (by rw [hba]; linarith only [ea.2, eb.1]), by rw [hba]; linarith only [ea.1, eb.2], hq⟩
  rcases e3 with e3 | ⟨⟨o, ho, e4⟩, e5⟩
  · have : r' = r := by
      have := C35_silent_unchanged (by rw [Is.eq (val_0 (F := F)) (val_0 (F := F))]; simp) st.fine k r hr e3
      rw [hr'] at this; cases this; rfl
    subst this
    exact hsame (.inl e3)
  have ho' := ho
  rw [h6] at ho'
  have hbo := column_bound hu32 f3 ho' (by omega)
  obtain ⟨c, d, hc, hd, hc0, hcd2, ec, ed⟩ := column_times (F := F) (P := m.patchCreator.patchSize) (by omega : 0 < ref.sampleRate) hu32 f3 hW2 hpp hbp hbo
  rw [← e4] at hc hd
  rw [← e5] at hd
  have ec := abs_le.mp ec
  have ed := abs_le.mp ed
  have b5 : (o * windowSamples ref.sampleRate : ℝ) ≤ 34359738368 := by exact_mod_cast hbo
  have hms : ∀ x : ℝ, |x| * ref.sampleRate = |x * ref.sampleRate| := fun x => by rw [abs_mul, abs_of_pos hs0]
  have hc1 : 0 ≤ c * ref.sampleRate := mul_nonneg hc0 hs0.le
  have hold : |(b - a) - (d - c)| * ref.sampleRate ≤ 1 / 100 := by
    rw [hms, abs_le, sub_mul, sub_mul, sub_mul]
    constructor <;> linarith only [ea.1, ea.2, eb.1, eb.2, ec.1, ec.2, ed.1, ed.2]
  have hds : ref.sampleRate = (scaleToMatchSpl ref al).sampleRate := by
    show _ = al.sampleRate
    omega
  rcases C52_fine_rounded hp hds (by omega) hu32 ha hb hc ha0 hab hc0 (by norm_num only; linarith only [eb.2, b1, b2])
    (by norm_num only; linarith only [ec.2, b5]) (by omega) with rfl | ⟨a', b', c', d', va, vb, vc, vd, q1, ⟨q0, q2⟩, l, q3, q4⟩
  · exact hsame (.inr ⟨c, d, hc, hd, by linarith only [hc1], hold⟩)
  have hl0 : (0 : ℝ) ≤ l := Nat.cast_nonneg _
  rw [hba] at q2 q3
  have q0' : (windowSamples ref.sampleRate : ℝ) - 1 / 100 ≤ (b' - a') * ref.sampleRate := by rw [← f1 ]; exact q0
  refine ⟨i, a', b', hi, va, vb, ?_, ?_, (sub_le_sub_right (min_le_left _ _) _).trans (by linarith only [q0']), by linarith only [q2, ea.1, eb.2], .inr ⟨c', d', vc, vd, ?_, by linarith only [q1]⟩⟩
  · rcases q4 with ⟨q4, _⟩ | ⟨q4, _⟩
    · rw [hms, sub_mul, add_mul, div_mul_cancel₀ _ hs0.ne'] at q4
      linarith only [(abs_le.mp q4).1, ea.1, hl0]
    · rw [q4]; linarith only [ea.1]
  · rcases q4 with ⟨q4, _⟩ | ⟨q4, _⟩
    · rw [hms, sub_mul, add_mul, div_mul_cancel₀ _ hs0.ne'] at q4
      linarith only [(abs_le.mp q4).2, ea.1, ea.2, eb.2, q3]
    · rw [q4]; linarith only [ea.2, hY0]
  · rcases q4 with ⟨_, q4⟩ | ⟨_, q4⟩
    · rw [q4]; linarith only [hc1]
    · rw [hms, sub_mul, add_mul, div_mul_cancel₀ _ hs0.ne'] at q4
      linarith only [(abs_le.mp q4).1, hc1, hl0]

/-- The hypotheses of `C52_rounded`: 3.6 s at 11025 Hz in double precision, the degraded signal 1000 samples late. -/
example (p : Profile) : ∃ m' res, drift64.computeResults p
    ⟨(onset B64 0 40000).data, 11025⟩ ⟨(onset B64 1000 40000).data, 11025⟩ = .ok (m', res) ∧ 0 < drift64.patchCreator.patchSize := by
  obtain ⟨m', res, h, _⟩ := drift64_run p
  exact ⟨m', res, h, by decide⟩

/-- The hypotheses of `C52_fine_rounded` on the times: a patch from 1 s to 2 s at 48 kHz; fine alignment runs in the comparison above. -/
example : val (1.0 : B64) = .fin 1 ∧ val (2.0 : B64) = .fin 2 ∧ (2 : ℝ) * (48000 : ℕ) ≤ 2 ^ 37 := by
  refine ⟨val_1, ?_, by norm_num⟩
  have := val_litnat (F := B64) (m := 20) (e := 1) (k := 2) (by norm_num) (by norm_num)
  exact this

end Visqol
