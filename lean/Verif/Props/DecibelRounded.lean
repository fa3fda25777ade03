import Verif.Props.FormulaRounded
import Verif.Props.Prepare
import Verif.Props.PrepareRounded

/-! # Prepared spectrograms follow the formula in floating point (C23, C99) -/

namespace Visqol
open Ieee Spec

section
variable {F : Type} [Flt F] [Ieee F]

theorem LevelsWithin.at {B : ℝ} (hB : 0 ≤ B) {m : Mat F} (h : LevelsWithin B m) (i j : ℕ) : Is (m.at i j) ((realMat m).at i j) ∧ |(realMat m).at i j| ≤ B := by
  rw [realMat_at]
  have key : ∃ x, Is (m.at i j) x ∧ |x| ≤ B := by
    unfold Mat.at
    simp only [List.getD_eq_getElem?_getD]
    cases hr : m.rows[i]? with
    | none => exact ⟨0, val_0, by simpa using hB⟩
    | some r =>
      simp only [Option.getD_some]
      cases ha : r[j]? with
      | none => exact ⟨0, val_0, by simpa using hB⟩
      | some a => exact h r (List.mem_of_getElem? hr) a (List.mem_of_getElem? ha)
  obtain ⟨x, h1, h2⟩ := key
  rw [number_of h1]
  exact ⟨h1, h2⟩

theorem realMat_wf' {m : Mat F} (h : m.WF) : (realMat m).WF := by
  intro r hr
  obtain ⟨q, hq, rfl⟩ := List.mem_map.mp hr
  rw [List.length_map]; exact h q hq

/-- The decibel value of a number, raised to -45. -/
theorem db_close [Libm F] {a : F} {x : ℝ} (ha : Is a x) (hx : |x| ≤ 2 ^ 100) :
    ∃ y, Is (Flt.max (-45.0) (sampleToDb a)) y ∧ |y - raised x| ≤ 1 / 2 ^ 36 := by
  have h45 : Is (-45.0 : F) (-45) := Is.neg val_45
  have key : ∀ b : F, ∀ y : ℝ, Is b y → 0 < y → y ≤ 2 ^ 100 → ∃ z, Is (Flt.max (-45.0) (10.0 * Flt.log10 b)) z ∧
      |z - max (-45) (10 * Real.logb 10 y)| ≤ 1 / 2 ^ 36 := by
    intro b y hb hy hu
    by_cases hl : 1 / 2 ^ 100 ≤ y
    · obtain ⟨z, hz, hze⟩ := Libm.log10_acc b y hb hl hu
      have hs : |Real.logb 10 y| ≤ 100 := by
        have l2 : Real.logb 10 2 ≤ 1 := by
          rw [Real.logb_le_iff_le_rpow (by norm_num) (by norm_num)]; norm_num
        have u : Real.logb 10 y ≤ 100 := by
          calc Real.logb 10 y ≤ Real.logb 10 (2 ^ 100) := Real.logb_le_logb_of_le (by norm_num) hy hu
            _ = 100 * Real.logb 10 2 := by rw [Real.logb_pow]; norm_num
            _ ≤ 100 := by linarith
        have d : -100 ≤ Real.logb 10 y := by
          calc (-100 : ℝ) ≤ -(100 * Real.logb 10 2) := by linarith
            _ = Real.logb 10 (1 / 2 ^ 100) := by rw [one_div, Real.logb_inv, Real.logb_pow]; norm_num
            _ ≤ Real.logb 10 y := Real.logb_le_logb_of_le (by norm_num) (by positivity) hl
        exact abs_le.mpr ⟨d, u⟩
      have hzs : |10 * z| ≤ 4096 := by
        have := abs_sub_abs_le_abs_sub z (Real.logb 10 y)
        rw [abs_mul]
        norm_num at hze ⊢
        linarith
      obtain ⟨v, hv, hve⟩ := rnd_close F hzs
      have hm := Is.mul (F := F) val_10 hz
      rw [hv] at hm
      refine ⟨_, Is.max h45 hm, (abs_max_sub_max_le_max _ _ _ _).trans (max_le (by simp) ?_)⟩
      have e : v - 10 * Real.logb 10 y = (v - 10 * z) + 10 * (z - Real.logb 10 y) := by ring
      rw [e]
      refine (abs_add_le _ _).trans ?_
      rw [abs_mul 10]
      norm_num at hze hve ⊢
      linarith
    · obtain ⟨z, hz, hze⟩ := log10_pos b y hb hy
      have l4 : 1 ≤ 4 * Real.logb 10 2 := by
        have e : 4 * Real.logb 10 2 = Real.logb 10 (2 ^ 4) := by rw [Real.logb_pow]; norm_num
        rw [e, Real.le_logb_iff_rpow_le (by norm_num) (by norm_num)]; norm_num
      have u : Real.logb 10 y ≤ -25 := by
        calc Real.logb 10 y ≤ Real.logb 10 (1 / 2 ^ 100) := Real.logb_le_logb_of_le (by norm_num) hy (not_le.mp hl).le
          _ = -(100 * Real.logb 10 2) := by rw [one_div, Real.logb_inv, Real.logb_pow]; norm_num
          _ ≤ -25 := by linarith
      have hz2 := (abs_le.mp hze).2
      have d : -358 ≤ Real.logb 10 y := by
        have l3 : 3 * Real.logb 10 2 ≤ 1 := by
          have e : 3 * Real.logb 10 2 = Real.logb 10 (2 ^ 3) := by rw [Real.logb_pow]; norm_num
          rw [e, Real.logb_le_iff_le_rpow (by norm_num) (by norm_num)]; norm_num
        rcases range b y hb with h0 | ⟨h1, _⟩
        · exact absurd h0 hy.ne'
        rw [abs_of_pos hy] at h1
        calc (-358 : ℝ) ≤ -(1074 * Real.logb 10 2) := by linarith
          _ = Real.logb 10 (1 / 2 ^ 1074) := by rw [one_div, Real.logb_inv, Real.logb_pow]; norm_num
          _ ≤ Real.logb 10 y := Real.logb_le_logb_of_le (by norm_num) (by positivity) h1
      obtain ⟨v, hv, hve⟩ := rnd_close F (x := 10 * z) (by
        have := (abs_le.mp hze).1
        rw [abs_le]; constructor <;> linarith)
      have hm := Is.mul (F := F) val_10 hz
      rw [hv] at hm
      have hv2 := (abs_le.mp hve).2
      have e39 : (1 : ℝ) / 2 ^ 39 ≤ 1 := by norm_num
      refine ⟨_, Is.max h45 hm, ?_⟩
      rw [max_eq_left (by linarith), max_eq_left (by linarith)]
      norm_num
  unfold sampleToDb raised decibels
  simp only [eq_val, val_0]
  rw [ha]
  by_cases hy : x = 0
  · simp only [Val.eq, hy, decide_true, if_true]
    exact key _ _ val_epsilon (by positivity) (by norm_num)
  · simp only [Val.eq, hy, decide_false, Bool.false_eq_true, if_false]
    exact key _ |x| (Is.abs ha) (by positivity) hx

theorem LevelsWithin.noInf {B : ℝ} {m : Mat F} (h : LevelsWithin B m) : NoInf m := by
  intro r hr a ha s hs
  obtain ⟨x, hx, _⟩ := h r hr a ha
  rw [hx] at hs
  cases hs

/-- The largest of values that are close to others is close to the largest of those. -/
theorem max_close {n k : ℕ} {u v u' v' : ℕ → ℝ} {e p q : ℝ} (hu : ∀ i < n, |u i - u' i| ≤ e) (hv : ∀ i < k, |v i - v' i| ≤ e)
    (hp : ((∃ i < n, p = u i) ∨ ∃ i < k, p = v i) ∧ (∀ i < n, u i ≤ p) ∧ ∀ i < k, v i ≤ p)
    (hq : ((∃ i < n, q = u' i) ∨ ∃ i < k, q = v' i) ∧ (∀ i < n, u' i ≤ q) ∧ ∀ i < k, v' i ≤ q) : |p - q| ≤ e := by
  obtain ⟨p1, p2, p3⟩ := hp
  obtain ⟨q1, q2, q3⟩ := hq
  rw [abs_le]
  constructor
  · rcases q1 with ⟨i, hi, rfl⟩ | ⟨i, hi, rfl⟩
    · have := (abs_le.mp (hu i hi)).1; have := p2 i hi; linarith
    · have := (abs_le.mp (hv i hi)).1; have := p3 i hi; linarith
  · rcases p1 with ⟨i, hi, rfl⟩ | ⟨i, hi, rfl⟩
    · have := (abs_le.mp (hu i hi)).2; have := q2 i hi; linarith
    · have := (abs_le.mp (hv i hi)).2; have := q3 i hi; linarith

/-- The smallest of values that are close to others is close to the smallest of those. -/
theorem lowest_close {n c k d : ℕ} {u v u' v' : ℕ → ℕ → ℝ} {e p q : ℝ} (hu : ∀ i < n, ∀ j < c, |u i j - u' i j| ≤ e)
    (hv : ∀ i < k, ∀ j < d, |v i j - v' i j| ≤ e) (hp : IsLowest n c k d u v p) (hq : IsLowest n c k d u' v' q) : |p - q| ≤ e := by
  obtain ⟨p1, p2, p3⟩ := hp
  obtain ⟨q1, q2, q3⟩ := hq
  rw [abs_le]
  constructor
  · rcases p1 with ⟨i, hi, j, hj, rfl⟩ | ⟨i, hi, j, hj, rfl⟩
    · have := (abs_le.mp (hu i hi j hj)).1; have := q2 i hi j hj; linarith
    · have := (abs_le.mp (hv i hi j hj)).1; have := q3 i hi j hj; linarith
  · rcases q1 with ⟨i, hi, j, hj, rfl⟩ | ⟨i, hi, j, hj, rfl⟩
    · have := (abs_le.mp (hu i hi j hj)).2; have := p2 i hi j hj; linarith
    · have := (abs_le.mp (hv i hi j hj)).2; have := p3 i hi j hj; linarith

/-- C23, floating point: if no entry of the spectrograms exceeds `2¹⁰⁰`, every prepared level is within `2⁻³⁴` dB of its decibel value,
raised to -45 and (in common frames) to 45 below the peak, minus the lowest. -/
theorem C23_formula_rounded [Libm F] {ref deg a b : Mat F} (wr : ref.WF) (wd : deg.WF) (hr : LevelsWithin (2 ^ 100) ref)
    (hd : LevelsWithin (2 ^ 100) deg) (h : prepareSpectrograms ref deg = .ok (a, b)) :
    ∃ (peak : ℕ → ℝ) (lowest : ℝ) (fr fd : ℕ → ℕ → ℝ),
      (∀ j, j < ref.ncols → j < deg.ncols →
        IsPeak ref.nrows deg.nrows (fun i j => number (ref.at i j)) (fun i j => number (deg.at i j)) j (peak j)) ∧
      (∀ i j, fr i j = if j < deg.ncols ∧ j < ref.ncols then max (peak j - 45) (raised (number (ref.at i j))) else raised (number (ref.at i j))) ∧
      (∀ i j, fd i j = if j < deg.ncols ∧ j < ref.ncols then max (peak j - 45) (raised (number (deg.at i j))) else raised (number (deg.at i j))) ∧
      IsLowest ref.nrows ref.ncols deg.nrows deg.ncols fr fd lowest ∧
      (∀ i < ref.nrows, ∀ j < ref.ncols, ∃ x, val (a.at i j) = .fin x ∧ |x - (fr i j - lowest)| ≤ 1 / 2 ^ 34) ∧
      (∀ i < deg.nrows, ∀ j < deg.ncols, ∃ x, val (b.at i j) = .fin x ∧ |x - (fd i j - lowest)| ≤ 1 / 2 ^ 34) := by
  have nr := hr.noInf
  have nd := hd.noInf
  obtain ⟨⟨floors, lowA, lowB, count, peaks, minA, minB, hA, hB⟩⟩ := prepare_ok wr wd h
  have hfl := floor_fin nr nd peaks
  have fin : ∀ (m : Mat F), NoInf m → ∀ z ∈ (Mat.ofFn m.nrows m.ncols (flooredAt floors (dbAt m))).toList, ∃ x, Is z x := by
    intro m hm z hz
    obtain ⟨i, _, j, _, rfl⟩ := Mat.mem_ofFn_toList.mp hz
    obtain ⟨x, hx, _⟩ := floored_fin hm hfl i j
    exact ⟨x, hx⟩
  obtain ⟨ma, ba⟩ := extremum_best (fin ref nr) minA
  obtain ⟨mb, bb⟩ := extremum_best (fin deg nd) minB
  obtain ⟨i1, hi1, j1, hj1, e1⟩ := Mat.mem_ofFn_toList.mp ma
  obtain ⟨i2, hi2, j2, hj2, e2⟩ := Mat.mem_ofFn_toList.mp mb
  -- the same in exact arithmetic
  obtain ⟨a', b', h'⟩ := C23_total (realMat_wf' wr) (realMat_wf' wd) (ref := realMat ref) (deg := realMat deg)
    (by rw [realMat_nrows]; omega) (by show 0 < ref.ncols; omega) (by rw [realMat_nrows]; omega) (by show 0 < deg.ncols; omega)
  obtain ⟨_, _, _, _, _, _, peak, lowest, fr, fd, hpk, hfr, hfd, hlw, _, _⟩ := C23_formula (realMat_wf' wr) (realMat_wf' wd) h'
  have cr : (realMat ref).ncols = ref.ncols := rfl
  have cd : (realMat deg).ncols = deg.ncols := rfl
  have er : (fun i j => number (ref.at i j)) = (realMat ref).at := funext fun i => funext fun j => (realMat_at ref i j).symm
  have ed : (fun i j => number (deg.at i j)) = (realMat deg).at := funext fun i => funext fun j => (realMat_at deg i j).symm
  simp only [realMat_nrows, cr, cd] at hpk hfr hfd hlw
  rw [er, ed]
  simp only [← realMat_at]
  refine ⟨peak, lowest, fr, fd, hpk, hfr, hfd, hlw, ?_⟩
  -- decibels
  have db : ∀ (m : Mat F), LevelsWithin (2 ^ 100) m → ∀ i j, |number (dbAt m i j) - raised ((realMat m).at i j)| ≤ 1 / 2 ^ 36 ∧
      Is (dbAt m i j) (number (dbAt m i j)) := by
    intro m hm i j
    obtain ⟨k1, k2⟩ := hm.at (by positivity) i j
    obtain ⟨y, y1, y2⟩ := db_close k1 k2
    have e : number (dbAt m i j) = y := number_of y1
    rw [e]; exact ⟨y2, y1⟩
  -- floors
  have floor : ∀ j < ref.ncols, j < deg.ncols → ∃ f, floors[j]? = some f ∧ Is f (number f) ∧ |number f - (peak j - 45)| ≤ 1 / 2 ^ 36 + 1 / 2 ^ 39 := by
    intro j hj hj'
    have hjl : j < floors.length := by omega
    refine ⟨floors[j], List.getElem?_eq_getElem hjl, ?_⟩
    obtain ⟨pa, pb, h1, h2, hf⟩ := peaks j floors[j] (List.getElem?_eq_getElem hjl)
    have fcol : ∀ (m : Mat F), NoInf m → ∀ z ∈ (List.range m.nrows).map (fun i => dbAt m i j), ∃ x, Is z x ∧ -45 ≤ x ∧ x ≤ 3600 := by
      intro m hm z hz
      obtain ⟨i, _, rfl⟩ := List.mem_map.mp hz
      exact db_fin (hm.at i j)
    obtain ⟨m1, q1⟩ := extremum_best (fun z hz => (fcol ref nr z hz).imp fun _ h => h.1) h1
    obtain ⟨m2, q2⟩ := extremum_best (fun z hz => (fcol deg nd z hz).imp fun _ h => h.1) h2
    obtain ⟨p1, hp1, l1, u1⟩ := fcol ref nr _ m1
    obtain ⟨p2, hp2, l2, u2⟩ := fcol deg nd _ m2
    have hs := Is.sub (Is.max hp1 hp2) (val_45 (F := F))
    have k1 := le_max_left p1 p2
    have k2 := max_le u1 u2
    obtain ⟨f, hf1, hf2⟩ := rnd_close F (x := max p1 p2 - 45) (by rw [abs_le]; constructor <;> linarith)
    rw [hf1, ← hf] at hs
    have ef : number floors[j] = f := number_of hs
    rw [ef]
    refine ⟨hs, ?_⟩
    have hpp : |max p1 p2 - peak j| ≤ 1 / 2 ^ 36 := by
      refine max_close (n := ref.nrows) (k := deg.nrows) (u := fun i => number (dbAt ref i j)) (v := fun i => number (dbAt deg i j))
        (u' := fun i => raised ((realMat ref).at i j)) (v' := fun i => raised ((realMat deg).at i j))
        (fun i _ => (db ref hr i j).1) (fun i _ => (db deg hd i j).1) ⟨?_, ?_, ?_⟩ (hpk j hj hj')
      · rcases max_choice p1 p2 with e | e <;> rw [e]
        · obtain ⟨i, hi, rfl⟩ := List.mem_map.mp m1
          exact .inl ⟨i, List.mem_range.mp hi, (number_of hp1).symm⟩
        · obtain ⟨i, hi, rfl⟩ := List.mem_map.mp m2
          exact .inr ⟨i, List.mem_range.mp hi, (number_of hp2).symm⟩
      · intro i hi
        exact ((q1 _ (List.mem_map.mpr ⟨i, List.mem_range.mpr hi, rfl⟩) _ p1 (db ref hr i j).2 hp1).1 rfl).trans k1
      · intro i hi
        exact ((q2 _ (List.mem_map.mpr ⟨i, List.mem_range.mpr hi, rfl⟩) _ p2 (db deg hd i j).2 hp2).1 rfl).trans (le_max_right _ _)
    have e : f - (peak j - 45) = (f - (max p1 p2 - 45)) + (max p1 p2 - peak j) := by ring
    rw [e]
    refine (abs_add_le _ _).trans ?_
    linarith
  -- raised levels
  have flo : ∀ (m : Mat F) (g : ℕ → ℕ → ℝ), LevelsWithin (2 ^ 100) m → (∀ i j, g i j = if j < deg.ncols ∧ j < ref.ncols then
        max (peak j - 45) (raised ((realMat m).at i j)) else raised ((realMat m).at i j)) → ∀ i j,
      Is (flooredAt floors (dbAt m) i j) (number (flooredAt floors (dbAt m) i j)) ∧
        |number (flooredAt floors (dbAt m) i j) - g i j| ≤ 1 / 2 ^ 36 + 1 / 2 ^ 39 := by
    intro m g hm hg i j
    obtain ⟨d1, d2⟩ := db m hm i j
    rw [hg]
    unfold flooredAt
    by_cases hj : j < deg.ncols ∧ j < ref.ncols
    · obtain ⟨f, f1, f2, f3⟩ := floor j hj.2 hj.1
      rw [if_pos hj, f1]
      have hv := Is.max f2 d2
      have ev := number_of hv
      simp only
      rw [ev]
      exact ⟨hv, (abs_max_sub_max_le_max _ _ _ _).trans (max_le f3 (d1.trans (by norm_num)))⟩
    · rw [if_neg hj, List.getElem?_eq_none (by omega)]
      exact ⟨d2, d1.trans (by norm_num)⟩
  have fA := flo ref fr hr hfr
  have fB := flo deg fd hd hfd
  -- the lowest
  obtain ⟨x1, hx1, b1⟩ := floored_fin nr hfl i1 j1
  obtain ⟨x2, hx2, b2⟩ := floored_fin nd hfl i2 j2
  rw [← e1] at hx1
  rw [← e2] at hx2
  have hmin : -91 ≤ min x1 x2 ∧ min x1 x2 ≤ 3600 := by rcases min_choice x1 x2 with e | e <;> rw [e] <;> assumption
  have hlow := Is.min hx1 hx2
  have hll : |min x1 x2 - lowest| ≤ 1 / 2 ^ 36 + 1 / 2 ^ 39 := by
    refine lowest_close (u := fun i j => number (flooredAt floors (dbAt ref) i j)) (v := fun i j => number (flooredAt floors (dbAt deg) i j))
      (fun i _ j _ => (fA i j).2) (fun i _ j _ => (fB i j).2) ⟨?_, ?_, ?_⟩ hlw
    · rcases min_choice x1 x2 with e | e <;> rw [e]
      · exact .inl ⟨i1, hi1, j1, hj1, by rw [e1] at hx1; exact (number_of hx1).symm⟩
      · exact .inr ⟨i2, hi2, j2, hj2, by rw [e2] at hx2; exact (number_of hx2).symm⟩
    · intro i hi j hj
      exact (min_le_left _ _).trans ((ba _ (Mat.mem_ofFn_toList.mpr ⟨i, hi, j, hj, rfl⟩) _ x1 (fA i j).1 hx1).2 rfl)
    · intro i hi j hj
      exact (min_le_right _ _).trans ((bb _ (Mat.mem_ofFn_toList.mpr ⟨i, hi, j, hj, rfl⟩) _ x2 (fB i j).1 hx2).2 rfl)
  have key : ∀ (z : F) (x y : ℝ), Is z x → -91 ≤ x → x ≤ 3600 → |x - y| ≤ 1 / 2 ^ 36 + 1 / 2 ^ 39 →
      ∃ v, val (z - Flt.min lowA lowB) = .fin v ∧ |v - (y - lowest)| ≤ 1 / 2 ^ 34 := by
    intro z x y hx l u hxy
    have hs := Is.sub hx hlow
    obtain ⟨v, hv, hv2⟩ := rnd_close F (x := x - min x1 x2) (by rw [abs_le]; constructor <;> linarith [hmin.1, hmin.2])
    refine ⟨v, hs.trans hv, ?_⟩
    have e : v - (y - lowest) = (v - (x - min x1 x2)) + (x - y) - (min x1 x2 - lowest) := by ring
    rw [e]
    refine (abs_sub _ _).trans ((add_le_add_left (abs_add_le _ _) _).trans ?_)
    norm_num at hv2 hxy hll ⊢
    linarith
  constructor
  · intro i hi j hj
    obtain ⟨x, hx, l, u⟩ := floored_fin nr hfl i j
    have e := (fA i j).2
    rw [number_of hx] at e
    rw [hA, Mat.ofFn_at _ _ _ _ _ hi hj]
    exact key _ x _ hx l u e
  · intro i hi j hj
    obtain ⟨x, hx, l, u⟩ := floored_fin nd hfl i j
    have e := (fB i j).2
    rw [number_of hx] at e
    rw [hB, Mat.ofFn_at _ _ _ _ _ hi hj]
    exact key _ x _ hx l u e

/-- C99, floating point: preparing two spectrograms enlarges the difference of two levels in decibels by no more than `2⁻³³` dB. -/
theorem C99_decibels_rounded [Libm F] {ref deg a b : Mat F} (wr : ref.WF) (wd : deg.WF) (hr : LevelsWithin (2 ^ 100) ref)
    (hd : LevelsWithin (2 ^ 100) deg) (h : prepareSpectrograms ref deg = .ok (a, b)) {i j : ℕ} (hi : i < ref.nrows) (hi' : i < deg.nrows)
    (hj : j < ref.ncols) (hj' : j < deg.ncols) :
    |number (a.at i j) - number (b.at i j)| ≤ |raised (number (ref.at i j)) - raised (number (deg.at i j))| + 1 / 2 ^ 33 := by
  obtain ⟨peak, lowest, fr, fd, _, h2, h3, _, h5, h6⟩ := C23_formula_rounded wr wd hr hd h
  obtain ⟨x, x1, x2⟩ := h5 i hi j hj
  obtain ⟨y, y1, y2⟩ := h6 i hi' j hj'
  rw [number_of x1, number_of y1]
  rw [h2, if_pos ⟨hj', hj⟩] at x2
  rw [h3, if_pos ⟨hj', hj⟩] at y2
  have key := abs_max_sub_max_le_abs (raised (number (ref.at i j))) (raised (number (deg.at i j))) (peak j - 45)
  rw [max_comm, max_comm _ (peak j - 45)] at key
  generalize max (peak j - 45) (raised (number (ref.at i j))) = u at *
  generalize max (peak j - 45) (raised (number (deg.at i j))) = v at *
  have e : x - y = (x - (u - lowest)) + (u - v) - (y - (v - lowest)) := by ring
  rw [e]
  refine (abs_sub _ _).trans ((add_le_add_left (abs_add_le _ _) _).trans ?_)
  norm_num at x2 y2 ⊢
  linarith

/-- The hypotheses of these: a band with two frames compared with a band with three. -/
example : ∃ ref deg : Mat F, ref.WF ∧ deg.WF ∧ LevelsWithin (2 ^ 100) ref ∧ LevelsWithin (2 ^ 100) deg ∧
    number (ref.at 0 0) ≠ number (deg.at 0 0) ∧ ∃ a b, prepareSpectrograms ref deg = .ok (a, b) := by
  have w1 : (⟨2, [[1.0, 0.0]]⟩ : Mat F).WF := by intro r hr; simp at hr; rw [hr]; rfl
  have w2 : (⟨3, [[0.0, 1.0, 1.0]]⟩ : Mat F).WF := by intro r hr; simp at hr; rw [hr]; rfl
  have l : ∀ (m : Mat F), (∀ r ∈ m.rows, ∀ a ∈ r, a = 0.0 ∨ a = 1.0) → LevelsWithin (2 ^ 100) m := by
    intro m h r hr a ha
    rcases h r hr a ha with rfl | rfl
    · exact ⟨0, val_0, by norm_num⟩
    · exact ⟨1, val_1, by norm_num⟩
  have l1 := l ⟨2, [[1.0, 0.0]]⟩ (by simp)
  have l2 := l ⟨3, [[0.0, 1.0, 1.0]]⟩ (by simp)
  obtain ⟨a, b, h, _⟩ := C24_nan_free w1 w2 (Nat.succ_pos _) (Nat.succ_pos _) (Nat.succ_pos _) (Nat.succ_pos _) l1.noInf l2.noInf
  refine ⟨_, _, w1, w2, l1, l2, ?_, a, b, h⟩
  show number (1.0 : F) ≠ number (0.0 : F)
  rw [number_of val_0, number_of val_1]; norm_num

end

end Visqol
