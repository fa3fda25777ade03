import Verif.Lemmas.IeeePrepare
import Verif.Lemmas.IeeeTime
import Verif.Lemmas.Spectro
import Verif.Lemmas.Prepare
import Verif.Lemmas.NsimReal

/-! # Silent signals in floating point: filtering, spectrograms, patch comparison -/

set_option linter.unusedSectionVars false

namespace Visqol
open Ieee
variable {F : Type} [Flt F] [Ieee F]

/-- Every sample is a zero (of either sign). -/
def Silent (l : List F) : Prop := ∀ a ∈ l, val a = .fin 0

/-- Zero or NaN. -/
def Mute (a : F) : Prop := val a = .fin 0 ∨ val a = .nan

theorem mute_0 : Mute (0.0 : F) := .inl val_0

theorem Mute.mul_right {a : F} (h : Mute a) (b : F) : Mute (a * b) := by
  rcases h with h | h
  · unfold Mute
    rw [val_mul, h]
    cases val b with
    | nan => exact .inr rfl
    | inf s => right; simp [Val.mul]
    | fin x => left; show rnd F (0 * x) = _; rw [zero_mul, rnd_zero]
  · exact .inr (nan_mul (.inl h))

theorem Mute.mul_left {a : F} (h : Mute a) (b : F) : Mute (b * a) := by
  rcases h with h | h
  · unfold Mute
    rw [val_mul, h]
    cases val b with
    | nan => exact .inr rfl
    | inf s => right; simp [Val.mul]
    | fin x => left; show rnd F (x * 0) = _; rw [mul_zero, rnd_zero]
  · exact .inr (nan_mul (.inr h))

theorem Mute.add {a b : F} (ha : Mute a) (hb : Mute b) : Mute (a + b) := by
  rcases ha with ha | ha
  · rcases hb with hb | hb
    · left; rw [Is.add ha hb, add_zero, rnd_zero]
    · exact .inr (nan_add (.inr hb))
  · exact .inr (nan_add (.inl ha))

theorem Mute.sub {a b : F} (ha : Mute a) (hb : Mute b) : Mute (a - b) := by
  rcases ha with ha | ha
  · rcases hb with hb | hb
    · left; rw [Is.sub ha hb, sub_zero, rnd_zero]
    · exact .inr (nan_sub (.inr hb))
  · exact .inr (nan_sub (.inl ha))

theorem Mute.sqrt {a : F} (h : Mute a) : Mute (Flt.sqrt a) := by
  unfold Mute
  rw [val_sqrt]
  rcases h with h | h <;> rw [h]
  · left
    show (if (0 : ℝ) < 0 then Val.nan else rnd F (Real.sqrt 0)) = _
    rw [if_neg (lt_irrefl _), Real.sqrt_zero, rnd_zero]
  · exact .inr rfl

theorem Mute.div_nat {a : F} (h : Mute a) {n : ℕ} (h0 : 0 < n) (hn : n ≤ 2 ^ 53) : Mute (a / Flt.ofNat n) := by
  rcases h with h | h
  · left
    rw [Is.div h (val_nat hn) (by exact_mod_cast h0.ne'), zero_div, rnd_zero]
  · exact .inr (div_nan _ _ (.inl h))

theorem silent_sum {l : List F} (h : Silent l) : val (Flt.sum l) = .fin 0 := by
  have hsum := sum_nat l (List.replicate l.length 0) (by
    rw [List.map_replicate, Nat.cast_zero]
    exact List.eq_replicate_iff.mpr ⟨by simp, fun a ha => by
      obtain ⟨b, hb, rfl⟩ := List.mem_map.mp ha
      exact h b hb⟩) (by simp)
  rwa [List.sum_replicate, smul_zero, Nat.cast_zero] at hsum

theorem mute_sum {l : List F} (h : ∀ a ∈ l, Mute a) : Mute (Flt.sum l) := by
  by_cases hn : ∃ a ∈ l, val a = .nan
  · exact .inr (sum_nan l hn)
  · exact .inl (silent_sum fun a ha => (h a ha).resolve_right fun hc => hn ⟨a, ha, hc⟩)

theorem filterSignal_mute {num den : Taps F} : ∀ {x : List F} {z : F × F}, (∀ a ∈ x, Mute a) → Mute z.1 → Mute z.2 →
    ∀ a ∈ (filterSignal num den x z).1, Mute a
  | [], _, _, _, _ => by intro a ha; simp [filterSignal] at ha
  | x :: xs, z, h, h1, h2 => by
    have hx := h x (by simp)
    have hy : Mute (num.c0 * x + z.1) := (hx.mul_left _).add h1
    intro a ha
    rcases List.mem_cons.mp ha with rfl | ha
    · exact hy
    · exact filterSignal_mute (x := xs) (fun b hb => h b (by simp [hb])) (((hx.mul_left _).add h2).sub (hy.mul_left _))
        ((hx.mul_left _).sub (hy.mul_left _)) a ha

theorem filterSignal_length {num den : Taps F} : ∀ {x : List F} {z : F × F}, (filterSignal num den x z).1.length = x.length
  | [], _ => rfl
  | x :: xs, z => by
    show (_ :: (filterSignal num den xs _).1).length = _
    rw [List.length_cons, filterSignal_length, List.length_cons]

theorem cascade_mute {c : BandCoeffs F} {x : List F} (h : ∀ a ∈ x, Mute a) : ∀ a ∈ cascade c x, Mute a := by
  unfold cascade
  dsimp only
  iterate 3 refine filterSignal_mute ?_ mute_0 mute_0
  exact filterSignal_mute h mute_0 mute_0

theorem bandEnergy_mute {c : BandCoeffs F} {x : List F} (h : ∀ a ∈ x, Mute a) (h0 : x ≠ []) (hn : x.length ≤ 2 ^ 53) :
    Mute (bandEnergy c x) := by
  unfold bandEnergy
  refine Mute.sqrt (Mute.div_nat (mute_sum ?_) (List.length_pos_iff.mpr h0) hn)
  intro b hb
  obtain ⟨a, ha, rfl⟩ := List.mem_map.mp hb
  exact (cascade_mute h a ha).mul_left _

/-- An entry of a matrix is one of the listed ones, or the default outside. -/
theorem at_of_rows {P : F → Prop} {m : Mat F} (h : ∀ r ∈ m.rows, ∀ a ∈ r, P a) (h0 : P 0.0) (i j : Nat) : P (m.at i j) := by
  unfold Mat.at
  by_cases hi : i < m.rows.length
  · rw [show m.rows.getD i [] = m.rows[i] from by simp [List.getD_eq_getElem?_getD, hi]]
    by_cases hj : j < m.rows[i].length
    · rw [show m.rows[i].getD j 0.0 = m.rows[i][j] from by simp [List.getD_eq_getElem?_getD, hj]]
      exact h _ (List.getElem_mem hi) _ (List.getElem_mem hj)
    · rw [List.getD_eq_getElem?_getD, List.getElem?_eq_none (by omega)]; exact h0
  · rw [show m.rows.getD i [] = [] from by rw [List.getD_eq_getElem?_getD, List.getElem?_eq_none (by omega)]; rfl]; exact h0

/-- The spectrogram of a silent signal. -/
theorem spectroMat_mute {nb : Nat} {f : F} {s : AudioSignal F} {w : AnalysisWindow F} (h : Silent s.data)
    (h1 : w.size ≤ s.data.length) (h2 : 0 < w.hop) (h3 : 0 < w.size) (hn : s.data.length ≤ 2 ^ 53) (i j : Nat) :
    Mute ((spectroMat nb f s w).at i j) := by
  refine at_of_rows (P := Mute) ?_ mute_0 i j
  intro r hr a ha
  obtain ⟨c, _, rfl⟩ := List.mem_map.mp hr
  obtain ⟨j, hj, rfl⟩ := List.mem_map.mp ha
  have hj := List.mem_range.mp hj
  refine bandEnergy_mute ?_ (frameAt_ne_nil h1 h2 h3 hj) ?_
  · intro a ha
    exact .inl (h a (List.mem_of_mem_drop (List.mem_of_mem_take ha)))
  · rw [frameAt_length h1 hj]; omega

theorem is_m45 : Is (-45.0 : F) (-45) := Is.neg val_45

/-- In decibels a zero or NaN is at the floor. -/
theorem db_mute {a : F} (h : Mute a) : Flt.max (-45.0) (sampleToDb a) = -45.0 := by
  unfold sampleToDb
  simp only [eq_val, val_0]
  rcases h with ha | ha
  · simp only [ha, Val.eq, decide_true, if_true]
    obtain ⟨y, hy, he⟩ := log10_pos (Flt.epsilon : F) _ val_epsilon (by positivity)
    have l2 : Real.logb 10 2 ≤ 1 := by
      rw [Real.logb_le_iff_le_rpow (by norm_num) (by norm_num)]; norm_num
    have l4 : 1 / 4 ≤ Real.logb 10 2 := by
      have h16 : (1 : ℝ) ≤ 4 * Real.logb 10 2 := by
        rw [show (4 : ℝ) * Real.logb 10 2 = Real.logb 10 (2 ^ 4) by rw [Real.logb_pow]; norm_num]
        rw [Real.le_logb_iff_rpow_le (by norm_num) (by norm_num)]; norm_num
      linarith
    have le : Real.logb 10 ((1 : ℝ) / 2 ^ 52) = -(52 * Real.logb 10 2) := by
      rw [one_div, Real.logb_inv, Real.logb_pow]; norm_num
    rw [le] at he
    have h1 := abs_le.mp he
    have hm := Is.mul (F := F) val_10 hy
    have hb : |10 * y| ≤ 1000 := by rw [abs_le]; constructor <;> linarith
    obtain ⟨z, hz, hze⟩ := rnd_acc (F := F) (10 * y) (hb.trans (by
      have : (2 : ℝ) ^ 10 ≤ 2 ^ 1000 := pow_le_pow_right₀ (by norm_num) (by norm_num)
      refine le_trans ?_ this
      norm_num))
    have hsmall : (1 : ℝ) / 2 ^ 1000 ≤ 1 := by
      rw [div_le_one (by positivity)]
      exact one_le_pow₀ (by norm_num)
    have hz2 : z < -45 := by
      have h3 := (abs_le.mp hze).2
      have h4 : |10 * y| / 2 ^ 52 ≤ 1 := by
        rw [div_le_one (by positivity)]
        refine hb.trans (by norm_num)
      generalize (2 : ℝ) ^ 1000 = P at *
      linarith
    rw [hz] at hm
    unfold Flt.max
    rw [Is.notNaN is_m45, Is.notNaN hm, Is.lt is_m45 hm, decide_eq_false (by linarith)]
    simp
  · simp only [ha, Val.eq, Bool.false_eq_true, if_false]
    exact max_nan_right is_m45 (nan_mul (.inr (log10_nan _ (nan_abs ha))))

theorem partialCmp_self {a : F} {x : ℝ} (h : Is a x) : Flt.partialCmp a a = some .eq := by
  rw [partialCmp_fin h h]; simp

/-- The extremum of a constant list. -/
theorem extremum_const {keep : Ordering} {l : List F} {c m : F} {x : ℝ} (hc : Is c x) (hl : ∀ a ∈ l, a = c)
    (h : extremum keep l = some m) : m = c := by
  cases l with
  | nil => cases h
  | cons a l =>
    unfold extremum at h
    have key : ∀ l' : List F, (∀ a ∈ l', a = c) → l'.foldl (fun acc x => do
        let m ← acc
        let c ← Flt.partialCmp x m
        some (if c = keep then x else m)) (some c) = some c := by
      intro l' hl'
      induction l' with
      | nil => rfl
      | cons b l' ih =>
        rw [List.foldl_cons, hl' b (by simp)]
        simp only [Option.bind_eq_bind, Option.bind_some, partialCmp_self hc, ite_self] at ih ⊢
        exact ih fun a ha => hl' a (by simp [ha])
    have ha : a = c := hl a (by simp)
    have := key (a :: l) hl
    dsimp only at h
    rw [ha] at h this
    rw [this] at h
    exact (Option.some.inj h).symm

/-- Every entry is a zero. -/
def ZeroMat (m : Mat F) : Prop := ∀ r ∈ m.rows, Silent r

theorem ZeroMat.at {m : Mat F} (h : ZeroMat m) (i j : Nat) : val (m.at i j) = .fin 0 :=
  at_of_rows (P := fun a => val a = .fin 0) h val_0 i j

/-- Preparing two spectrograms of zeros and NaNs gives zeros. -/
theorem prepare_mute {ref deg a b : Mat F} (wr : ref.WF) (wd : deg.WF) (hr : ∀ i j, Mute (ref.at i j))
    (hd : ∀ i j, Mute (deg.at i j)) (h : prepareSpectrograms ref deg = .ok (a, b)) : ZeroMat a ∧ ZeroMat b := by
  obtain ⟨⟨floors, lowA, lowB, count, peaks, minA, minB, hA, hB⟩⟩ := prepare_ok wr wd h
  have dr : dbAt ref = fun _ _ => (-45.0 : F) := by funext i j; exact db_mute (hr i j)
  have dd : dbAt deg = fun _ _ => (-45.0 : F) := by funext i j; exact db_mute (hd i j)
  have hmaxself : Flt.max (-45.0 : F) (-45.0) = -45.0 := by
    unfold Flt.max; simp
  have hfl : flooredAt floors (fun _ _ => (-45.0 : F)) = fun _ _ => (-45.0 : F) := by
    funext i j
    unfold flooredAt
    cases hj : floors[j]? with
    | none => rfl
    | some f =>
      obtain ⟨pa, pb, h1, h2, rfl⟩ := peaks j f hj
      rw [dr] at h1
      rw [dd] at h2
      have e1 := extremum_const is_m45 (fun a ha => by obtain ⟨_, _, rfl⟩ := List.mem_map.mp ha; rfl) h1
      have e2 := extremum_const is_m45 (fun a ha => by obtain ⟨_, _, rfl⟩ := List.mem_map.mp ha; rfl) h2
      dsimp only
      rw [e1, e2, hmaxself]
      have h90 : Is ((-45.0 : F) - 45.0) (-90) := by
        have := Is.sub (F := F) is_m45 val_45
        rw [Is, this, show (-45 - 45 : ℝ) = ((-90 : ℤ) : ℝ) by norm_num, rnd_int F (by norm_num)]
        norm_num
      unfold Flt.max
      rw [Is.notNaN is_m45, Is.notNaN h90, Is.lt h90 is_m45, decide_eq_true (by norm_num)]
      simp
  rw [dr, hfl] at minA hA
  rw [dd, hfl] at minB hB
  have eA := extremum_const is_m45 (fun a ha => by obtain ⟨_, _, _, _, rfl⟩ := Mat.mem_ofFn_toList.mp ha; rfl) minA
  have eB := extremum_const is_m45 (fun a ha => by obtain ⟨_, _, _, _, rfl⟩ := Mat.mem_ofFn_toList.mp ha; rfl) minB
  have hmin : Flt.min lowA lowB = (-45.0 : F) := by rw [eA, eB]; unfold Flt.min; simp
  have hz : val ((-45.0 : F) - (-45.0)) = .fin 0 := by
    rw [Is.sub (F := F) is_m45 is_m45, sub_self, rnd_zero]
  constructor
  · rw [hA]
    intro r hr' x hx'
    obtain ⟨i, _, j, _, rfl⟩ := Mat.mem_ofFn_toList.mp (List.mem_flatten.mpr ⟨r, hr', hx'⟩)
    rw [hmin]; exact hz
  · rw [hB]
    intro r hr' x hx'
    obtain ⟨i, _, j, _, rfl⟩ := Mat.mem_ofFn_toList.mp (List.mem_flatten.mpr ⟨r, hr', hx'⟩)
    rw [hmin]; exact hz

/-! ## Patch comparison -/

theorem lit_fin {m e : ℕ} (h : (m : ℝ) / 10 ^ e ≤ 1000) : ∃ x, val (Flt.toOfScientific.ofScientific m true e : F) = .fin x := by
  rw [val_sci]
  simp only [if_true]
  have h0 : (0 : ℝ) ≤ (m : ℝ) / 10 ^ e := by positivity
  obtain ⟨y, hy, _⟩ := rnd_small F (x := (m : ℝ) / 10 ^ e) (by rw [abs_of_nonneg h0]; exact h.trans (by norm_num))
  exact ⟨y, hy⟩

theorem zero_mul_fin {a b : F} (ha : val a = .fin 0) (hb : ∃ x, val b = .fin x) : val (a * b) = .fin 0 := by
  obtain ⟨x, hx⟩ := hb
  rw [Is.mul ha hx, zero_mul, rnd_zero]

theorem zero_add_zero {a b : F} (ha : val a = .fin 0) (hb : val b = .fin 0) : val (a + b) = .fin 0 := by
  rw [Is.add ha hb, add_zero, rnd_zero]

theorem zero_sub_zero {a b : F} (ha : val a = .fin 0) (hb : val b = .fin 0) : val (a - b) = .fin 0 := by
  rw [Is.sub ha hb, sub_zero, rnd_zero]

theorem zero_mul_zero {a b : F} (ha : val a = .fin 0) (hb : val b = .fin 0) : val (a * b) = .fin 0 :=
  zero_mul_fin ha ⟨_, hb⟩

theorem nsimAvg_zero {x : Nat → Nat → F} (h : ∀ r c, val (x r c) = .fin 0) : val (nsimAvg x) = .fin 0 := by
  have l1 : ∃ v, val (0.0113033910173052 : F) = .fin v := lit_fin (m := 113033910173052) (e := 16) (by norm_num)
  have l2 : ∃ v, val (0.0838251475442633 : F) = .fin v := lit_fin (m := 838251475442633) (e := 16) (by norm_num)
  have l3 : ∃ v, val (0.619485845753726 : F) = .fin v := lit_fin (m := 619485845753726) (e := 15) (by norm_num)
  unfold nsimAvg convSum
  iterate 9 refine zero_add_zero ?_ (zero_mul_fin (h _ _) (by assumption))
  exact val_0

/-- A small positive constant is a positive number. -/
theorem powf_sq_pos {a : F} {x : ℝ} (ha : Is a x) (h1 : 1 / 1000 ≤ x) (h2 : x ≤ 1) :
    ∃ z, val (Flt.powf a 2.0) = .fin z ∧ 1 / 10000000 ≤ z ∧ z ≤ 2 := by
  have h0 : 0 < x := by linarith
  have e : x ^ (2 : ℝ) = x * x := by rw [show (2 : ℝ) = ((2 : ℕ) : ℝ) by norm_num, Real.rpow_natCast]; ring
  have hlow : 1 / 1000000 ≤ x * x := by nlinarith
  have hup : x * x ≤ 1 := by nlinarith
  obtain ⟨z, hz, z1, z2⟩ := powf_pos a 2.0 x 2 ha val_2 h0 (by
    rw [e]
    have : (2 : ℝ) ^ 20 ≤ 2 ^ 900 := pow_le_pow_right₀ (by norm_num) (by norm_num)
    refine le_trans ?_ hlow
    apply one_div_le_one_div_of_le (by norm_num)
    refine le_trans ?_ this
    norm_num) (by
    rw [e]
    exact hup.trans (one_le_pow₀ (by norm_num)))
  rw [e] at z1 z2
  exact ⟨z, hz, by linarith, by linarith⟩

theorem lit_near {m e : ℕ} {x : ℝ} (h : (m : ℝ) / 10 ^ e = x) (h1 : 1 / 1000000 ≤ x) (h2 : x ≤ 1000) :
    ∃ y, val (Flt.toOfScientific.ofScientific m true e : F) = .fin y ∧ |y - x| ≤ 1 / 2 ^ 51 * x := by
  obtain ⟨y, hy, he⟩ := rnd_rel F (x := x) (.inr ⟨by
    have : (2 : ℝ) ^ 20 ≤ 2 ^ 900 := pow_le_pow_right₀ (by norm_num) (by norm_num)
    refine le_trans ?_ h1
    apply one_div_le_one_div_of_le (by norm_num)
    refine le_trans ?_ this
    norm_num, by
    have : (2 : ℝ) ^ 10 ≤ 2 ^ 900 := pow_le_pow_right₀ (by norm_num) (by norm_num)
    refine h2.trans (le_trans ?_ this)
    norm_num⟩)
  refine ⟨y, ?_, he⟩
  rw [val_sci, if_pos rfl, h, hy]

/-- The rounding of a number of moderate size is near it. -/
theorem rnd_mod (F : Type) [Flt F] [Ieee F] {x : ℝ} (h1 : 1 / 100000000000 ≤ x) (h2 : x ≤ 1000) :
    ∃ y, rnd F x = .fin y ∧ x / 2 ≤ y ∧ y ≤ 2 * x := by
  obtain ⟨y, hy, he⟩ := rnd_rel F (x := x) (.inr ⟨by
    have : (2 : ℝ) ^ 40 ≤ 2 ^ 900 := pow_le_pow_right₀ (by norm_num) (by norm_num)
    refine le_trans ?_ h1
    apply one_div_le_one_div_of_le (by norm_num)
    refine le_trans ?_ this
    norm_num, by
    have : (2 : ℝ) ^ 10 ≤ 2 ^ 900 := pow_le_pow_right₀ (by norm_num) (by norm_num)
    refine h2.trans (le_trans ?_ this)
    norm_num⟩)
  refine ⟨y, hy, ?_⟩
  have h0 : 0 < x := lt_of_lt_of_le (by norm_num) h1
  have := abs_le.mp he
  norm_num at this
  constructor <;> linarith

theorem nsimC1_pos : ∃ z, val (nsimC1 : F) = .fin z ∧ 1 / 10000000 ≤ z ∧ z ≤ 2 := by
  unfold nsimC1
  obtain ⟨y, hy, he⟩ := lit_near (F := F) (m := 1) (e := 2) (x := 1 / 100) (by norm_num) (by norm_num) (by norm_num)
  have hy1 := abs_le.mp he
  norm_num at hy1
  obtain ⟨v, hv, v1, v2⟩ := rnd_mod F (x := y) (by linarith) (by linarith)
  have hm : Is ((0.01 : F) * 1.0) v := by
    rw [Is, Is.mul (show Is (0.01 : F) y from hy) val_1, mul_one, hv]
  exact powf_sq_pos hm (by linarith) (by linarith)

theorem nsimC3_pos : ∃ z, val (nsimC3 : F) = .fin z ∧ 1 / 100000000 ≤ z ∧ z ≤ 4 := by
  unfold nsimC3
  obtain ⟨y, hy, he⟩ := lit_near (F := F) (m := 3) (e := 2) (x := 3 / 100) (by norm_num) (by norm_num) (by norm_num)
  have hy1 := abs_le.mp he
  norm_num at hy1
  obtain ⟨v, hv, v1, v2⟩ := rnd_mod F (x := y) (by linarith) (by linarith)
  have hm : Is ((0.03 : F) * 1.0) v := by
    rw [Is, Is.mul (show Is (0.03 : F) y from hy) val_1, mul_one, hv]
  obtain ⟨z, hz, z1, z2⟩ := powf_sq_pos hm (by linarith) (by linarith)
  obtain ⟨u, hu, u1, u2⟩ := rnd_mod F (x := z / 2) (by linarith) (by linarith)
  exact ⟨u, by rw [Is.div hz val_2 (by norm_num), hu], by linarith, by linarith⟩

/-- Adding zeros to a positive constant on both sides of a fraction gives 1. -/
theorem ratio_one {a b c : F} {z : ℝ} (ha : val a = .fin 0) (hb : val b = .fin 0) (hc : val c = .fin z)
    (h1 : 1 / 100000000 ≤ z) (h2 : z ≤ 4) : val ((a + c) / (b + c)) = .fin 1 := by
  obtain ⟨y, hy, y1, _⟩ := rnd_mod F (x := z) (by linarith) (by linarith)
  have e1 : Is (a + c) y := by rw [Is, Is.add ha hc, zero_add, hy]
  have e2 : Is (b + c) y := by rw [Is, Is.add hb hc, zero_add, hy]
  have hy0 : y ≠ 0 := by intro h; linarith
  rw [Is.div e1 e2 hy0, div_self hy0, rnd_one]

theorem simCell_zero {x y : Nat → Nat → F} (hx : ∀ r c, val (x r c) = .fin 0) (hy : ∀ r c, val (y r c) = .fin 0) :
    val (simCell x y) = .fin 1 := by
  unfold simCell
  dsimp only
  have mx := nsimAvg_zero hx
  have my := nsimAvg_zero hy
  have sxx := zero_sub_zero (nsimAvg_zero (x := fun r c => x r c * x r c) fun r c => zero_mul_zero (hx r c) (hx r c))
    (zero_mul_zero mx mx)
  have syy := zero_sub_zero (nsimAvg_zero (x := fun r c => y r c * y r c) fun r c => zero_mul_zero (hy r c) (hy r c))
    (zero_mul_zero my my)
  have sxy := zero_sub_zero (nsimAvg_zero (x := fun r c => x r c * y r c) fun r c => zero_mul_zero (hx r c) (hy r c))
    (zero_mul_zero mx my)
  obtain ⟨c1, hc1, c1a, c1b⟩ := nsimC1_pos (F := F)
  obtain ⟨c3, hc3, c3a, c3b⟩ := nsimC3_pos (F := F)
  have i1 := ratio_one (zero_mul_fin (zero_mul_zero mx my) ⟨_, val_2⟩) (zero_add_zero (zero_mul_zero mx mx) (zero_mul_zero my my))
    hc1 (by linarith) (by linarith)
  have hs := zero_mul_zero sxx syy
  have i2 : val ((nsimAvg (fun r c => x r c * y r c) - nsimAvg x * nsimAvg y + nsimC3) /
      strDenom ((nsimAvg (fun r c => x r c * x r c) - nsimAvg x * nsimAvg x) *
        (nsimAvg (fun r c => y r c * y r c) - nsimAvg y * nsimAvg y))) = .fin 1 := by
    unfold strDenom
    rw [Is.lt hs val_0, decide_eq_false (lt_irrefl _), if_neg (by simp)]
    refine ratio_one sxy ?_ hc3 c3a c3b
    rw [val_sqrt, hs]
    show (if (0 : ℝ) < 0 then Val.nan else rnd F (Real.sqrt 0)) = _
    rw [if_neg (lt_irrefl _), Real.sqrt_zero, rnd_zero]
  rw [Is.mul i1 i2, one_mul, rnd_one]

/-- Every number is 1. -/
def AllOne (l : List F) : Prop := ∀ a ∈ l, val a = .fin 1

theorem one_mean {l : List F} (h : AllOne l) {n : ℕ} (hl : l.length = n) (h0 : 0 < n) (hn : n ≤ 2 ^ 53) :
    val (Flt.sum l / Flt.ofNat n) = .fin 1 := by
  have hsum := sum_nat l (List.replicate l.length 1) (by
    rw [List.map_replicate, Nat.cast_one]
    exact List.eq_replicate_iff.mpr ⟨by simp, fun a ha => by
      obtain ⟨b, hb, rfl⟩ := List.mem_map.mp ha
      exact h b hb⟩) (by simp; omega)
  rw [List.sum_replicate, smul_eq_mul, mul_one, hl] at hsum
  have hn0 : (n : ℝ) ≠ 0 := by exact_mod_cast h0.ne'
  rw [Is.div hsum (val_nat hn) hn0, div_self hn0, rnd_one]

/-- Two patches of zeros have similarity 1 in every band. -/
theorem measure_zero {p : Profile} {a b : Mat F} {r : PatchSim F} (wa : a.WF) (wb : b.WF) (ha : ZeroMat a) (hb : ZeroMat b)
    (hn : a.nrows ≤ 2 ^ 53) (hc : a.ncols ≤ 2 ^ 53) (h : measurePatchSimilarity p a b = .ok r) :
    val r.similarity = .fin 1 ∧ AllOne r.freqBandMeans ∧ r.freqBandMeans.length = a.nrows := by
  obtain ⟨hs, hn0, hc0⟩ := measure_ok_inv h
  rw [measurePatchSimilarity_eq p a b wa wb hs hn0 hc0] at h
  cases h
  have hmeans : AllOne ((Mat.ofFn a.nrows a.ncols fun i j => simCell (a.near i j) (b.near i j)).rows.map
      (fun r => Flt.sum r / Flt.ofNat a.ncols)) := by
    intro x hx
    obtain ⟨r, hr, rfl⟩ := List.mem_map.mp hx
    obtain ⟨i, _, rfl⟩ := List.mem_map.mp hr
    refine one_mean ?_ (by simp) hc0 hc
    intro y hy
    obtain ⟨j, _, rfl⟩ := List.mem_map.mp hy
    exact simCell_zero (fun _ _ => ha.at _ _) fun _ _ => hb.at _ _
  have hl : ((Mat.ofFn a.nrows a.ncols fun i j => simCell (a.near i j) (b.near i j)).rows.map
      (fun r => Flt.sum r / Flt.ofNat a.ncols)).length = a.nrows := by simp [Mat.ofFn]
  exact ⟨one_mean hmeans hl hn0 hn, hmeans, hl⟩

end Visqol
