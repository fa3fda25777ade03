import Verif.Lemmas.IeeeStd
import Verif.Lemmas.IeeeFilter
import Verif.Lemmas.IeeeSum
import Verif.Lemmas.NsimReal
import Verif.Props.LevelRounded

/-! # Floating point: the deviations are close to the sample standard deviations -/

set_option linter.unusedSectionVars false

namespace Visqol
open Ieee

theorem mul_close {v u A B d : ℝ} (h1 : |v - A| ≤ d) (h2 : |u - B| ≤ d) (hA : |A| ≤ 4) (hB : |B| ≤ 4) (hd : d ≤ 1) : |v * u - A * B| ≤ 9 * d := by
  have hu : |u| ≤ 5 := by
    have := abs_add_le (u - B) B
    rw [sub_add_cancel] at this
    linarith
  have e : v * u - A * B = (v - A) * u + A * (u - B) := by ring
  rw [e]
  refine (abs_add_le _ _).trans ?_
  rw [abs_mul, abs_mul]
  nlinarith [mul_le_mul h1 hu (abs_nonneg _) ((abs_nonneg _).trans h1), mul_le_mul hA h2 (abs_nonneg _) (by norm_num)]

section
variable {F : Type} [Flt F] [Ieee F] [Libm F]

/-- The rounded mean after one more value. -/
theorem welford_mean_step {x y y' c u q m e : ℝ} (hc0 : 0 ≤ c) (hc1 : c ≤ 1) (hu : |u - (x - y)| ≤ 8 / 2 ^ 51) (hq : |q - u * c| ≤ 8 / 2 ^ 51)
    (hm : |m - (y + q)| ≤ 16 / 2 ^ 51) (hy : |y - y'| ≤ e) : |m - (y' + (x - y') * c)| ≤ e + 1 / 2 ^ 46 := by
  have e1 : m - (y' + (x - y') * c) = (m - (y + q)) + (q - u * c) + (u - (x - y)) * c + (y - y') * (1 - c) := by ring
  rw [e1]
  have t1 : |(u - (x - y)) * c| ≤ 8 / 2 ^ 51 := by
    rw [abs_mul, abs_of_nonneg hc0]
    exact (mul_le_of_le_one_right (abs_nonneg _) hc1).trans hu
  have t2 : |(y - y') * (1 - c)| ≤ e := by
    rw [abs_mul, abs_of_nonneg (by linarith : (0 : ℝ) ≤ 1 - c)]
    exact (mul_le_of_le_one_right (abs_nonneg _) (by linarith)).trans hy
  have s1 := abs_add_le ((m - (y + q)) + (q - u * c) + (u - (x - y)) * c) ((y - y') * (1 - c))
  have s2 := abs_add_le ((m - (y + q)) + (q - u * c)) ((u - (x - y)) * c)
  have s3 := abs_add_le (m - (y + q)) (q - u * c)
  norm_num at *
  linarith

theorem welford_close : ∀ (l : List F) (xs : List ℝ) (i : ℕ) (b s : F) (y y' σ σ' : ℝ), List.Forall₂ (fun a x => Is a x ∧ |x| ≤ 2) l xs →
    Is b y → |y'| ≤ 2 → |y - y'| ≤ i / 2 ^ 46 → Is s σ → |σ'| ≤ 16 * i → |σ - σ'| ≤ i / 2 ^ 30 → i + l.length ≤ 2 ^ 10 →
    ∃ z, Is (welford l i b s) z ∧ |z - welford xs i y' σ'| ≤ (i + l.length : ℕ) / 2 ^ 30 ∧ |welford xs i y' σ'| ≤ 16 * (i + l.length : ℕ)
  | [], xs, i, b, s, y, y', σ, σ', hl, _, _, _, hs, h16, hσ, _ => by
    cases hl
    exact ⟨σ, hs, by simpa [welford] using hσ, by simpa [welford] using h16⟩
  | a :: l, xs, i, b, s, y, y', σ, σ', hl, hb, hy', hy, hs, h16, hσ, hn => by
    cases hl with
    | @cons _ x _ xs h hl =>
    obtain ⟨ha, hx⟩ := h
    rw [List.length_cons] at hn ⊢
    have hi : (i : ℝ) + 1 ≤ 2 ^ 10 := by exact_mod_cast (by omega : i + 1 ≤ 2 ^ 10)
    have hi0 : (0 : ℝ) ≤ i := Nat.cast_nonneg _
    have hc0 : (0 : ℝ) ≤ 1 / ((i : ℝ) + 1) := by positivity
    have hc1 : 1 / ((i : ℝ) + 1) ≤ 1 := by rw [div_le_one (by linarith)]; linarith
    have hye : |y - y'| ≤ 1 / 2 ^ 36 := hy.trans (by norm_num at *; linarith)
    have hyb : |y| ≤ 3 := by
      have := abs_add_le (y - y') y'
      rw [sub_add_cancel] at this
      norm_num at hye; linarith
    have hxy : |x - y| ≤ 5 := by
      have := abs_sub x y
      linarith
    obtain ⟨u, hu, hue⟩ := rnd_err F (x := x - y) (B := 8) (by linarith) (by norm_num)
      (by have := two_pow_mono (m := 3) (n := 1000) (by norm_num); norm_num only at this ⊢; exact this)
    have huI : Is (a - b) u := (Is.sub ha hb).trans hu
    have hub : |u| ≤ 6 := by
      have := abs_add_le (u - (x - y)) (x - y)
      rw [sub_add_cancel] at this
      norm_num at hue; linarith
    have hq0 : |u * (1 / ((i : ℝ) + 1))| ≤ 6 := by
      rw [abs_mul, abs_of_nonneg hc0]
      exact (mul_le_of_le_one_right (abs_nonneg _) hc1).trans hub
    obtain ⟨q, hq, hqe⟩ := rnd_err F (x := u * (1 / ((i : ℝ) + 1))) (B := 8) (by linarith) (by norm_num)
      (by have := two_pow_mono (m := 3) (n := 1000) (by norm_num); norm_num only at this ⊢; exact this)
    have hni : Is (Flt.ofNat (i + 1) : F) ((i : ℝ) + 1) := by
      have := val_nat (F := F) (n := i + 1) (by omega)
      push_cast at this; exact this
    have hqI : Is ((a - b) / Flt.ofNat (i + 1)) q := (Is.div huI hni (by positivity)).trans (by rw [← hq, mul_one_div])
    have hqb : |q| ≤ 7 := by
      have := abs_add_le (q - u * (1 / ((i : ℝ) + 1))) (u * (1 / ((i : ℝ) + 1)))
      rw [sub_add_cancel] at this
      have h8 : (8 : ℝ) / 2 ^ 51 ≤ 1 := by norm_num
      linarith
    obtain ⟨m, hm, hme⟩ := rnd_err F (x := y + q) (B := 16) (by have := abs_add_le y q; linarith) (by norm_num)
      (by have := two_pow_mono (m := 4) (n := 1000) (by norm_num); norm_num only at this ⊢; exact this)
    have hmI : Is (b + (a - b) / Flt.ofNat (i + 1)) m := (Is.add hb hqI).trans hm
    have hms := welford_mean_step hc0 hc1 hue hqe hme hy
    set m' := y' + (x - y') * (1 / ((i : ℝ) + 1)) with hm'
    have hms1 : |m - m'| ≤ ((i + 1 : ℕ) : ℝ) / 2 ^ 46 := by push_cast; rw [add_div]; exact hms
    have hms2 : |m - m'| ≤ 1 / 2 ^ 36 := hms1.trans (by push_cast; norm_num at *; linarith)
    have hm'b : |m'| ≤ 2 := by
      have e : m' = y' * (1 - 1 / ((i : ℝ) + 1)) + x * (1 / ((i : ℝ) + 1)) := by rw [hm']; ring
      generalize 1 / ((i : ℝ) + 1) = c at *
      rw [e]
      refine (abs_add_le _ _).trans ?_
      rw [abs_mul, abs_mul, abs_of_nonneg hc0, abs_of_nonneg (by linarith : (0 : ℝ) ≤ 1 - c)]
      nlinarith [mul_le_mul_of_nonneg_right hy' (by linarith : (0 : ℝ) ≤ 1 - c), mul_le_mul_of_nonneg_right hx hc0]
    have hmb : |m| ≤ 3 := by
      have := abs_add_le (m - m') m'
      rw [sub_add_cancel] at this
      norm_num at hms2; linarith
    obtain ⟨v, hv, hve⟩ := rnd_err F (x := x - m) (B := 8) (by have := abs_sub x m; linarith) (by norm_num)
      (by have := two_pow_mono (m := 3) (n := 1000) (by norm_num); norm_num only at this ⊢; exact this)
    have hvI : Is (a - (b + (a - b) / Flt.ofNat (i + 1))) v := (Is.sub ha hmI).trans hv
    have hvd : |v - (x - m')| ≤ 1 / 2 ^ 35 := by
      have e : v - (x - m') = (v - (x - m)) + -(m - m') := by ring
      rw [e]
      refine (abs_add_le _ _).trans ?_
      rw [abs_neg]
      norm_num at *; linarith
    have hud : |u - (x - y')| ≤ 1 / 2 ^ 35 := by
      have e : u - (x - y') = (u - (x - y)) + -(y - y') := by ring
      rw [e]
      refine (abs_add_le _ _).trans ?_
      rw [abs_neg]
      norm_num at *; linarith
    have hA : |x - m'| ≤ 4 := by have := abs_sub x m'; linarith
    have hB : |x - y'| ≤ 4 := by have := abs_sub x y'; linarith
    have hmul := mul_close hvd hud hA hB (by norm_num)
    have hAB : |(x - m') * (x - y')| ≤ 16 := by
      rw [abs_mul]
      nlinarith [mul_le_mul hA hB (abs_nonneg _) (by norm_num)]
    have hnew : |v * u + σ - ((x - m') * (x - y') + σ')| ≤ 9 * (1 / 2 ^ 35) + i / 2 ^ 30 := by
      have e : v * u + σ - ((x - m') * (x - y') + σ') = (v * u - (x - m') * (x - y')) + (σ - σ') := by ring
      rw [e]
      exact (abs_add_le _ _).trans (add_le_add hmul hσ)
    have hnew' : |(x - m') * (x - y') + σ'| ≤ 16 * ((i + 1 : ℕ) : ℝ) := by
      refine (abs_add_le _ _).trans ?_
      push_cast; linarith
    obtain ⟨w, hw, hwe⟩ := rnd_err F (x := v * u + σ) (B := 2 ^ 15) (by
      have := abs_add_le (v * u + σ - ((x - m') * (x - y') + σ')) ((x - m') * (x - y') + σ')
      rw [sub_add_cancel] at this
      push_cast at hnew'
      norm_num at *; linarith) (by norm_num) (two_pow_mono (by norm_num))
    have hwI : Is (Flt.mulAdd (a - (b + (a - b) / Flt.ofNat (i + 1))) (a - b) s) w := by
      rw [Is, Libm.val_mulAdd _ _ _ v u σ hvI huI hs]; exact hw
    have hwd : |w - ((x - m') * (x - y') + σ')| ≤ ((i + 1 : ℕ) : ℝ) / 2 ^ 30 := by
      have := abs_add_le (w - (v * u + σ)) (v * u + σ - ((x - m') * (x - y') + σ'))
      rw [sub_add_sub_cancel] at this
      push_cast
      norm_num at *; linarith
    have key := welford_close l xs (i + 1) _ _ m m' w _ hl hmI hm'b hms1 hwI hnew' hwd (by omega)
    have e : welford (x :: xs) i y' σ' = welford xs (i + 1) m' ((x - m') * (x - y') + σ') := by
      have em : y' + (x - y') / (Flt.ofNat (i + 1) : ℝ) = m' := by
        rw [hm', real_ofNat, mul_one_div]; push_cast; rfl
      rw [welford]
      simp only [em]
      rfl
    rw [e]
    rw [show i + (l.length + 1) = i + 1 + l.length by omega]
    exact key

/-- A row of numbers of at most 2 has a deviation close to its sample standard deviation. -/
theorem stdRow_close {l : List F} {xs : List ℝ} (hl : List.Forall₂ (fun a x => Is a x ∧ |x| ≤ 2) l xs) (h2 : 2 ≤ l.length) (h10 : l.length ≤ 2 ^ 10) :
    ∃ d, Is (stdRow l) d ∧ |d - sampleStd xs| ≤ 1 / 20000 := by
  have hlen := hl.length_eq
  obtain ⟨z, hz, hze, hzb⟩ := welford_close l xs 0 0.0 0.0 0 0 0 0 hl val_0 (by norm_num) (by norm_num) val_0 (by norm_num) (by norm_num) (by omega)
  obtain ⟨d0, hd0, _, _⟩ := stdRow_bd (F := F) (B := 2) (by norm_num)
    (by have := two_pow_mono (m := 1) (n := 400) (by norm_num); norm_num only at this ⊢; exact this) (l := l)
    (fun a ha => by
      obtain ⟨x, h⟩ : ∃ x, Is a x ∧ |x| ≤ 2 := by
        clear hze hzb hz h2 h10 hlen
        induction hl with
        | nil => cases ha
        | cons h _ ih => rcases List.mem_cons.mp ha with rfl | h'; exacts [⟨_, h⟩, ih h']
      exact ⟨x, h⟩) h2 (by omega)
  rw [← stdRow_real]
  rw [Nat.zero_add] at hze hzb
  have hn : (2 : ℝ) ≤ l.length := by exact_mod_cast h2
  have hnm : Is (Flt.ofNat l.length - 1.0 : F) ((l.length : ℝ) - 1) := by
    have e1 : ((l.length - 1 : ℕ) : ℝ) = (l.length : ℝ) - 1 := by rw [Nat.cast_sub (by omega)]; norm_num
    refine (Is.sub (val_nat (F := F) (n := l.length) (by omega)) val_1).trans ?_
    rw [← e1]
    refine rnd_fixed (val_nat (F := F) (n := l.length - 1) (by omega)) ?_
    rw [abs_of_nonneg (Nat.cast_nonneg _)]
    calc ((l.length - 1 : ℕ) : ℝ) ≤ 2 ^ 32 := by exact_mod_cast (by omega : l.length - 1 ≤ 2 ^ 32)
      _ ≤ 2 ^ 1000 := two_pow_mono (by norm_num)
  have eR : stdRow xs = Real.sqrt (welford xs 0 0 0 / ((l.length : ℝ) - 1)) := by
    unfold stdRow
    simp only [real_lit0, real_lit1, real_ofNat, real_sqrt]
    rw [hlen]
  rw [eR]
  generalize welford xs 0 (0 : ℝ) 0 = W at *
  generalize (l.length : ℝ) = n at *
  have hn1 : 0 < n - 1 := by linarith
  have q1 : |z / (n - 1) - W / (n - 1)| ≤ 1 / 2 ^ 29 := by
    rw [← sub_div, abs_div, abs_of_pos hn1, div_le_iff₀ hn1]
    refine hze.trans ?_
    norm_num; linarith
  have q2 : |W / (n - 1)| ≤ 32 := by
    rw [abs_div, abs_of_pos hn1, div_le_iff₀ hn1]
    linarith
  generalize W / (n - 1) = V at *
  have q3 : |z / (n - 1)| ≤ 33 := by
    have := abs_add_le (z / (n - 1) - V) V
    rw [sub_add_cancel] at this
    norm_num at *; linarith
  obtain ⟨w, hw, hwe⟩ := rnd_err F (x := z / (n - 1)) (B := 64) (by linarith) (by norm_num)
    (by have := two_pow_mono (m := 6) (n := 1000) (by norm_num); norm_num only at this ⊢; exact this)
  have hwI : Is (welford l 0 0.0 0.0 / (Flt.ofNat l.length - 1.0) : F) w := (Is.div hz hnm hn1.ne').trans hw
  have hw0 : 0 ≤ w := by
    by_contra hneg
    have h : Is (stdRow l) d0 := hd0
    unfold stdRow at h
    rw [Is, Ieee.val_sqrt, hwI, Val.sqrt, if_pos (not_le.mp hneg)] at h
    cases h
  have hwV : |w - V| ≤ 1 / 2 ^ 29 + 1 / 2 ^ 45 := by
    have := abs_add_le (w - z / (n - 1)) (z / (n - 1) - V)
    rw [sub_add_sub_cancel] at this
    norm_num at *; linarith
  have hwb : w ≤ 64 := by
    have := abs_le.mp hwV
    have := abs_le.mp q2
    norm_num at *; linarith
  have hsb : Real.sqrt w ≤ 8 := by rw [Real.sqrt_le_left (by norm_num)]; linarith
  obtain ⟨d, hd, hde⟩ := rnd_err F (x := Real.sqrt w) (B := 8) (by rw [abs_of_nonneg (Real.sqrt_nonneg _)]; exact hsb) (by norm_num)
    (by have := two_pow_mono (m := 3) (n := 1000) (by norm_num); norm_num only at this ⊢; exact this)
  refine ⟨d, (hwI.sqrt hw0).trans hd, ?_⟩
  have hs : |Real.sqrt w - Real.sqrt V| ≤ 1 / 22000 := by
    have key : ∀ {a b : ℝ}, a ≤ b + (1 / 22000) ^ 2 → Real.sqrt a ≤ Real.sqrt b + 1 / 22000 := by
      intro a b h
      rcases le_total b 0 with hb | hb
      · rw [Real.sqrt_eq_zero_of_nonpos hb, Real.sqrt_le_left (by norm_num)]
        linarith
      · rw [Real.sqrt_le_left (by positivity)]
        nlinarith [Real.sq_sqrt hb, Real.sqrt_nonneg b]
    obtain ⟨k1, k2⟩ := abs_le.mp hwV
    have s1 := key (a := w) (b := V) (by norm_num at *; linarith)
    have s2 := key (a := V) (b := w) (by norm_num at *; linarith)
    rw [abs_le]; constructor <;> linarith
  have := abs_add_le (d - Real.sqrt w) (Real.sqrt w - Real.sqrt V)
  rw [sub_add_sub_cancel] at this
  norm_num at *; linarith

end

/-- Lists that are close entry by entry have close deviations. -/
theorem sampleStd_near {a b : List ℝ} {ε : ℝ} (h : List.Forall₂ (fun x y => |x - y| ≤ ε) a b) (h2 : 2 ≤ b.length) :
    |sampleStd a - sampleStd b| ≤ 3 * ε := by
  have hlen := h.length_eq
  have hg : ∀ i < b.length, |a.getD i 0 - b.getD i 0| ≤ ε := by
    intro i hi
    have hi' : i < a.length := by omega
    have := List.forall₂_iff_get.mp h |>.2 i hi' hi
    simpa [List.getD_eq_getElem?_getD, hi, hi'] using this
  have hε : 0 ≤ ε := (abs_nonneg _).trans (hg 0 (by omega))
  have hn : (2 : ℝ) ≤ b.length := by exact_mod_cast h2
  have hsum : |a.sum - b.sum| ≤ b.length * ε := by
    clear hg hlen hn h2
    induction h with
    | nil => simp
    | @cons x y a b hxy _ ih =>
      rw [List.sum_cons, List.sum_cons, List.length_cons]
      have e : x + a.sum - (y + b.sum) = (x - y) + (a.sum - b.sum) := by ring
      rw [e]
      refine (abs_add_le _ _).trans ?_
      push_cast; linarith
  have hmean : |mean a - mean b| ≤ ε := by
    unfold mean
    rw [hlen, ← sub_div, abs_div, abs_of_pos (by linarith : (0 : ℝ) < b.length), div_le_iff₀ (by linarith)]
    linarith
  have std_rms : ∀ l : List ℝ, 2 ≤ l.length → sampleStd l = rms (l.map fun x => x - mean l) * Real.sqrt (l.length / (l.length - 1)) := by
    intro l hl
    have hl' : (2 : ℝ) ≤ l.length := by exact_mod_cast hl
    have e0 : ((l.map fun x => x - mean l).map fun x => x ^ 2) = l.map fun x => (x - mean l) ^ 2 := by
      rw [List.map_map]; rfl
    unfold sampleStd rms
    rw [e0, List.length_map, ← Real.sqrt_mul' _ (div_nonneg (by linarith) (by linarith))]
    congr 1
    have h1 : (l.length : ℝ) ≠ 0 := by linarith
    have h2 : (l.length : ℝ) - 1 ≠ 0 := by linarith
    field_simp
  have hr := rms_near (a := a.map fun x => x - mean a) (b := b.map fun x => x - mean b) (c := 0) (d := 2 * ε) (by simp [hlen])
    (by
      intro h0
      have := congrArg List.length h0
      simp at this; rw [this] at h2; simp at h2) le_rfl (by linarith)
    (by
      intro i hi
      rw [List.length_map] at hi
      have hi' : i < a.length := by omega
      have h1 := hg i hi
      simp only [List.getD_eq_getElem?_getD, List.getElem?_map, List.getElem?_eq_getElem hi, List.getElem?_eq_getElem hi', Option.map_some,
        Option.getD_some] at h1 ⊢
      have e : a[i] - mean a - (b[i] - mean b) = (a[i] - b[i]) + -(mean a - mean b) := by ring
      rw [e]
      refine (abs_add_le _ _).trans ?_
      rw [abs_neg]
      linarith)
  rw [zero_mul, zero_add] at hr
  rw [std_rms a (by omega), std_rms b h2, hlen, ← sub_mul, abs_mul, abs_of_nonneg (Real.sqrt_nonneg _)]
  have hq : Real.sqrt ((b.length : ℝ) / (b.length - 1)) ≤ 3 / 2 := by
    rw [Real.sqrt_le_left (by norm_num), div_le_iff₀ (by linarith)]
    nlinarith
  calc _ ≤ 2 * ε * (3 / 2) := mul_le_mul hr hq (Real.sqrt_nonneg _) (by linarith)
    _ = 3 * ε := by ring

end Visqol
