import Verif.Lemmas.IeeeBound
import Verif.Lemmas.Conv
import Verif.Lemmas.IeeeTime
import Verif.Props.OptimalRounded

/-! # The patch comparison in floating point: finite and bounded for finite levels -/

set_option linter.unusedSectionVars false

namespace Visqol
open Ieee
variable {F : Type} [Flt F] [Ieee F]

theorem mid_of {x : ℝ} (h1 : 1 / 2 ^ 30 ≤ x) (h2 : x ≤ 2 ^ 30) : Mid x :=
  .inr ⟨(div_le_div_of_nonneg_left (by norm_num) (by positivity) (two_pow_mono (by norm_num))).trans h1, h2.trans (two_pow_mono (by norm_num))⟩

/-- `(lit * 1)²` computed by `powf` lies within a factor of three of the exact square. -/
theorem square_const {a : F} {x : ℝ} (ha : Rel a x (1 / 2 ^ 51)) (hx1 : 1 / 128 ≤ x) (hx2 : x ≤ 1) :
    ∃ z, Is (Flt.powf (a * 1.0) 2.0) z ∧ x ^ 2 / 3 ≤ z ∧ z ≤ 3 * x ^ 2 := by
  have h1 := Rel.mul ha (Rel.exact (val_1 (F := F)) (by norm_num)) (mid_of (by linarith) (by linarith)) (mid_of (by norm_num) (by norm_num))
    (by norm_num) le_rfl (by norm_num) (by norm_num)
  obtain ⟨_, w, hw, hw'⟩ := h1
  rw [mul_one] at hw'
  have hw2 : |w - x| ≤ x / 1000 := hw'.trans (by norm_num; linarith)
  rw [abs_le] at hw2
  obtain ⟨a1, a2⟩ := hw2
  clear hw'
  have hwp : 0 < w := by linarith
  have e2 : w ^ (2 : ℝ) = w ^ 2 := by norm_cast
  have hlow : 0.9 * x ≤ w := by norm_num; linarith
  have hhigh : w ≤ 1.1 * x := by norm_num; linarith
  have hsq1 : 0.81 * x ^ 2 ≤ w ^ 2 := by
    have := mul_self_le_mul_self (by positivity) hlow
    norm_num at this ⊢; nlinarith
  have hsq2 : w ^ 2 ≤ 1.21 * x ^ 2 := by
    have := mul_self_le_mul_self hwp.le hhigh
    norm_num at this ⊢; nlinarith
  have hx3 : (1 : ℝ) / 16384 ≤ x ^ 2 := by nlinarith
  have hx4 : x ^ 2 ≤ 1 := by nlinarith
  norm_num at hsq1 hsq2
  obtain ⟨z, z1, z2, z3⟩ := powf_pos (F := F) (a * 1.0) 2.0 w 2 hw val_2 hwp (by
      rw [e2]
      refine (div_le_div_of_nonneg_left (by norm_num) (by positivity) (two_pow_mono (by norm_num : 20 ≤ 900))).trans ?_
      norm_num
      linarith) (by
      rw [e2]
      refine le_trans ?_ (two_pow_mono (by norm_num : 2 ≤ 900))
      norm_num
      linarith)
  rw [e2] at z2 z3
  exact ⟨z, z1, by linarith, by linarith⟩

theorem c1_bounds : ∃ z, Is (nsimC1 : F) z ∧ 1 / 2 ^ 15 ≤ z ∧ z ≤ 1 := by
  obtain ⟨z, h1, h2, h3⟩ := square_const (F := F) (a := 0.01) (x := 1 / 100)
    ⟨by norm_num, lit_near (F := F) (m := 1) (e := 2) (x := 1 / 100) (by norm_num) (by norm_num) (by norm_num)⟩ (by norm_num) (by norm_num)
  exact ⟨z, h1, by norm_num at h2 ⊢; linarith, by norm_num at h3; linarith⟩

theorem c3_bounds : ∃ z, Is (nsimC3 : F) z ∧ 1 / 2 ^ 14 ≤ z ∧ z ≤ 1 := by
  obtain ⟨z, h1, h2, h3⟩ := square_const (F := F) (a := 0.03) (x := 3 / 100)
    ⟨by norm_num, lit_near (F := F) (m := 3) (e := 2) (x := 3 / 100) (by norm_num) (by norm_num) (by norm_num)⟩ (by norm_num) (by norm_num)
  norm_num at h2 h3
  obtain ⟨_, w, hw, hw'⟩ := Rel.div_exact (Rel.exact h1 (by linarith)) (val_2 (F := F)) (mid_of (by norm_num; linarith) (by norm_num; linarith))
    (mid_of (by norm_num) (by norm_num)) (by norm_num) le_rfl (by norm_num)
  have hw2 : |w - z / 2| ≤ z / 1000 := hw'.trans (by norm_num; linarith)
  rw [abs_le] at hw2
  obtain ⟨a1, a2⟩ := hw2
  exact ⟨w, hw, by norm_num; linarith, by linarith⟩

theorem convSum_pw {a b c d e f g h i : F} {x : Nat → Nat → F} {n : ℕ} (ha : Pw 1 a) (hb : Pw 1 b) (hc : Pw 1 c) (hd : Pw 1 d) (he : Pw 1 e)
    (hf : Pw 1 f) (hg : Pw 1 g) (hh : Pw 1 h) (hi : Pw 1 i) (hx : ∀ r c, Pw n (x r c)) (hn : n ≤ 800) :
    Pw (n + 7) (convSum a b c d e f g h i x) := by
  have e1 : convSum a b c d e f g h i x = Flt.iterSum [x 0 0 * i, x 1 0 * h, x 2 0 * g, x 0 1 * f, x 1 1 * e, x 2 1 * d, x 0 2 * c,
      x 1 2 * b, x 2 2 * a] := rfl
  rw [e1]
  have := Pw.iterSum (F := F) (n := n + 2) (k := 4) (l := [x 0 0 * i, x 1 0 * h, x 2 0 * g, x 0 1 * f, x 1 1 * e, x 2 1 * d, x 0 2 * c,
      x 1 2 * b, x 2 2 * a]) (by
    intro y hy
    have key : ∀ r c w, Pw 1 w → Pw (n + 2) (x r c * w) := fun r c w hw => (hx r c).mul hw (by omega)
    simp only [List.mem_cons, List.not_mem_nil, or_false] at hy
    rcases hy with rfl | rfl | rfl | rfl | rfl | rfl | rfl | rfl | rfl <;> exact key _ _ _ (by assumption)) (by simp) (by omega) (by omega)
  exact this.mono (by omega)

theorem nsimAvg_pw {x : Nat → Nat → F} {n : ℕ} (hx : ∀ r c, Pw n (x r c)) (hn : n ≤ 800) : Pw (n + 7) (nsimAvg x) := by
  have h1 : Pw 1 (0.0113033910173052 : F) := Pw.lit (n := 0) (by norm_num) (by norm_num)
  have h2 : Pw 1 (0.0838251475442633 : F) := Pw.lit (n := 0) (by norm_num) (by norm_num)
  have h3 : Pw 1 (0.619485845753726 : F) := Pw.lit (n := 0) (by norm_num) (by norm_num)
  exact convSum_pw h1 h2 h1 h2 h3 h2 h1 h2 h1 hx hn

/-- The value of a finite product of a number with itself is not negative. -/
theorem sq_nonneg' {a : F} {x : ℝ} {n : ℕ} (ha : Is a x) (hx : |x| ≤ 2 ^ n) (hn : n ≤ 400) : ∃ y, Is (a * a) y ∧ 0 ≤ y ∧ |y| ≤ 2 ^ (2 * n + 1) := by
  obtain ⟨y, h1, h2⟩ := Pw.mul (F := F) ⟨x, ha, hx⟩ ⟨x, ha, hx⟩ (by omega : n + n ≤ 990)
  refine ⟨y, h1, rnd_nonneg ((Is.mul ha ha).symm.trans h1) (mul_self_nonneg x), h2.trans (two_pow_mono (by omega))⟩

theorem simCell_pw {x y : Nat → Nat → F} {n : ℕ} (hx : ∀ r c, Pw n (x r c)) (hy : ∀ r c, Pw n (y r c)) (hn : n ≤ 150) :
    Pw (4 * n + 80) (simCell x y) := by
  obtain ⟨c1, hc1, hc1l, hc1u⟩ := c1_bounds (F := F)
  obtain ⟨c3, hc3, hc3l, hc3u⟩ := c3_bounds (F := F)
  have hc1p : 0 < c1 := lt_of_lt_of_le (by positivity) hc1l
  have hc3p : 0 < c3 := lt_of_lt_of_le (by positivity) hc3l
  have pc1 : ∀ k, Pw k (nsimC1 : F) := fun k => ⟨c1, hc1, by rw [abs_of_pos hc1p]; exact hc1u.trans (one_le_pow₀ (by norm_num))⟩
  have pc3 : ∀ k, Pw k (nsimC3 : F) := fun k => ⟨c3, hc3, by rw [abs_of_pos hc3p]; exact hc3u.trans (one_le_pow₀ (by norm_num))⟩
  have hmx := nsimAvg_pw hx (by omega)
  have hmy := nsimAvg_pw hy (by omega)
  have hxx := nsimAvg_pw (fun r c => (hx r c).mul (hx r c) (by omega)) (by omega)
  have hyy := nsimAvg_pw (fun r c => (hy r c).mul (hy r c) (by omega)) (by omega)
  have hxy := nsimAvg_pw (fun r c => (hx r c).mul (hy r c) (by omega)) (by omega)
  unfold simCell
  dsimp only
  generalize nsimAvg x = mx at *
  generalize nsimAvg y = my at *
  generalize nsimAvg (fun r c => x r c * x r c) = axx at *
  generalize nsimAvg (fun r c => y r c * y r c) = ayy at *
  generalize nsimAvg (fun r c => x r c * y r c) = axy at *
  -- intensity
  have hint : Pw (2 * n + 35) ((mx * my * 2.0 + nsimC1) / (mx * mx + my * my + nsimC1)) := by
    have hnum : Pw (2 * n + 19) (mx * my * 2.0 + nsimC1) :=
      (((hmx.mul hmy (by omega)).mul Pw.two (by omega)).add (pc1 _) (by omega)).mono (by omega)
    obtain ⟨ux, hux, hux2⟩ := hmx
    obtain ⟨uy, huy, huy2⟩ := hmy
    obtain ⟨a, ha, ha0, hab⟩ := sq_nonneg' hux hux2 (by omega)
    obtain ⟨b, hb, hb0, hbb⟩ := sq_nonneg' huy huy2 (by omega)
    obtain ⟨s, hs, hsb⟩ := Pw.add (F := F) ⟨a, ha, hab⟩ ⟨b, hb, hbb⟩ (by omega)
    have hs0 : 0 ≤ s := rnd_nonneg ((Is.add ha hb).symm.trans hs) (by linarith)
    obtain ⟨d, hd, _⟩ := Pw.add (F := F) ⟨s, hs, hsb⟩ (pc1 _) (by omega)
    have hdl : c1 ≤ d := rnd_lower hc1 ((Is.add hs hc1).symm.trans hd) (by linarith)
    have hq := Pw.div (n := 15) hnum hd (by rw [abs_of_pos (by linarith)]; linarith) (by omega)
    exact hq.mono (by omega)
  -- structure
  have hden : ∃ d, Is (strDenom ((axx - mx * mx) * (ayy - my * my))) d ∧ 1 / 2 ^ 14 ≤ |d| := by
    have h1 : Pw (2 * n + 17) (axx - mx * mx) := ((hxx.mono (by omega)).sub (hmx.mul hmx (by omega)) (by omega)).mono (by omega)
    have h2 : Pw (2 * n + 17) (ayy - my * my) := ((hyy.mono (by omega)).sub (hmy.mul hmy (by omega)) (by omega)).mono (by omega)
    obtain ⟨e, he, heb⟩ := h1.mul h2 (by omega)
    unfold strDenom
    rw [Is.lt he val_0]
    by_cases hneg : e < 0
    · rw [decide_eq_true hneg, if_pos rfl]
      exact ⟨c3, hc3, by rw [abs_of_pos hc3p]; exact hc3l⟩
    · rw [decide_eq_false hneg, if_neg (by simp)]
      obtain ⟨r, hr, hrb⟩ := Pw.sqrt he (not_lt.mp hneg) heb (by omega)
      have hr0 : 0 ≤ r := rnd_nonneg ((he.sqrt (not_lt.mp hneg)).symm.trans hr) (Real.sqrt_nonneg _)
      obtain ⟨d, hd, _⟩ := Pw.add (F := F) ⟨r, hr, hrb⟩ (pc3 _) (by omega)
      have hdl : c3 ≤ d := rnd_lower hc3 ((Is.add hr hc3).symm.trans hd) (by linarith)
      exact ⟨d, hd, by rw [abs_of_pos (by linarith)]; linarith⟩
  have hstr : Pw (2 * n + 34) ((axy - mx * my + nsimC3) / strDenom ((axx - mx * mx) * (ayy - my * my))) := by
    obtain ⟨d, hd, hdl⟩ := hden
    have hnum : Pw (2 * n + 19) (axy - mx * my + nsimC3) :=
      ((((hxy.mono (by omega)).sub (hmx.mul hmy (by omega)) (by omega)).add (pc3 _) (by omega))).mono (by omega)
    exact (Pw.div (n := 14) hnum hd hdl (by omega)).mono (by omega)
  exact (hint.mul hstr (by omega)).mono (by omega)

/-- Every entry is finite and at most `2ⁿ`. -/
def Mat.Pw (n : ℕ) (m : Mat F) : Prop := ∀ r ∈ m.rows, ∀ a ∈ r, Visqol.Pw n a

theorem Mat.Pw.near {m : Mat F} {n : ℕ} (h : m.Pw n) (i j r c : Nat) : Visqol.Pw n (m.near i j r c) := by
  unfold Mat.near Mat.at
  generalize min (i + r - 1) (m.nrows - 1) = a
  generalize min (j + c - 1) (m.ncols - 1) = b
  cases h1 : m.rows[a]? with
  | none => simp [List.getD, h1, Visqol.Pw.zero]
  | some row =>
    cases h2 : row[b]? with
    | none => simp [List.getD, h1, h2, Visqol.Pw.zero]
    | some x =>
      simp only [List.getD, h1, h2, Option.getD_some]
      exact h row (List.mem_of_getElem? h1) x (List.mem_of_getElem? h2)

theorem Mat.Pw.mono {m : Mat F} {n k : ℕ} (h : m.Pw n) (hk : n ≤ k) : m.Pw k := fun r hr a ha => (h r hr a ha).mono hk

theorem Mat.Pw.window {m : Mat F} {n : ℕ} (h : m.Pw n) (o len : Nat) : (m.window o len).Pw n := by
  intro r hr a ha
  obtain ⟨r', hr', rfl⟩ := List.mem_map.mp hr
  obtain ⟨c, _, rfl⟩ := List.mem_map.mp ha
  cases h1 : r'[o + c]? with
  | none => simp [List.getD, h1, Visqol.Pw.zero]
  | some x => simp only [List.getD, h1, Option.getD_some]; exact h r' hr' x (List.mem_of_getElem? h1)

/-- The scores of two patches of finite levels are finite. -/
theorem measure_pw [Libm F] {p : Profile} {ref deg : Mat F} {n : ℕ} {q : PatchSim F} (hr : ref.Pw n) (hd : deg.Pw n) (hn : n ≤ 100)
    (wr : ref.WF) (wd : deg.WF) (hs : ref.SameShape deg) (hn0 : 0 < ref.nrows) (hc0 : 0 < ref.ncols)
    (hrows : ref.nrows ≤ 2 ^ 32) (hcols : ref.ncols ≤ 2 ^ 32) (h : measurePatchSimilarity p ref deg = .ok q) :
    Pw (4 * n + 200) q.similarity ∧ (∀ a ∈ q.freqBandMeans, Pw (4 * n + 120) a) ∧ (∀ a ∈ q.freqBandDegEnergy, Pw (n + 40) a) := by
  have := measurePatchSimilarity_eq p ref deg wr wd hs hn0 hc0
  dsimp only at this
  rw [this] at h
  cases h
  have hcells : ∀ r ∈ (Mat.ofFn ref.nrows ref.ncols fun i j => simCell (ref.near i j) (deg.near i j)).rows, r.length = ref.ncols ∧
      ∀ a ∈ r, Pw (4 * n + 80) a := by
    intro r hr'
    obtain ⟨i, _, rfl⟩ := List.mem_map.mp hr'
    refine ⟨by simp, fun a ha => ?_⟩
    obtain ⟨j, _, rfl⟩ := List.mem_map.mp ha
    exact simCell_pw (fun r c => hr.near i j r c) (fun r c => hd.near i j r c) (by omega)
  have h53 : (2 : ℕ) ^ 32 ≤ 2 ^ 53 := by norm_num
  have hmeans : ∀ a ∈ (Mat.ofFn ref.nrows ref.ncols fun i j => simCell (ref.near i j) (deg.near i j)).rows.map
      (fun r => Flt.sum r / Flt.ofNat ref.ncols), Pw (4 * n + 120) a := by
    intro a ha
    obtain ⟨r, hr', rfl⟩ := List.mem_map.mp ha
    obtain ⟨h1, h2⟩ := hcells r hr'
    have := Pw.sum (k := 32) h2 (by omega) (by norm_num) (by omega)
    exact (this.div_nat hc0 (by omega) (by omega)).mono (by omega)
  refine ⟨?_, hmeans, ?_⟩
  · have := Pw.sum (k := 32) hmeans (by simp [Mat.ofFn]; omega) (by norm_num) (by omega)
    exact (this.div_nat hn0 (by omega) (by omega)).mono (by omega)
  · intro a ha
    obtain ⟨r, hr', rfl⟩ := List.mem_map.mp ha
    have hl := wd r hr'
    have := Pw.sum (k := 32) (hd r hr') (by rw [hl, ← hs.2]; exact hcols) (by norm_num) (by omega)
    rw [← hs.2]
    exact (this.div_nat hc0 (by omega) (by omega)).mono (by omega)

/-- Patches of finite levels have finite similarities. -/
theorem similarities_within [Libm F] {p : Profile} {rps : List (Mat F)} {deg : Mat F} {n nb pp : ℕ} (hn : n ≤ 100)
    (hr : ∀ q ∈ rps, q.WF ∧ q.nrows = nb ∧ q.ncols = pp) (hnb : 0 < nb) (hpp : 0 < pp) (hnb2 : nb ≤ 2 ^ 32) (hpp2 : pp ≤ 2 ^ 32)
    (hd : deg.nrows = nb) (hrp : ∀ q ∈ rps, q.Pw n) (hdp : deg.Pw n) : SimilaritiesWithin p (2 ^ 600) rps deg := by
  intro k o m q hk ho h
  have hm := List.mem_of_getElem? hk
  obtain ⟨w1, w2, w3⟩ := hr m hm
  obtain ⟨v1, v2, v3⟩ := window_wf deg o m.ncols
  obtain ⟨x, hx1, hx2⟩ := (measure_pw (hrp m hm) (hdp.window o m.ncols) hn w1 v1 ⟨by omega, by omega⟩ (by omega) (by omega) (by omega) (by omega) h).1
  exact ⟨x, hx1, hx2.trans (two_pow_mono (by omega))⟩

end Visqol
