import Verif.Props.PrepareIeee
import Verif.Lemmas.IeeeStd

/-! # Prepared spectrograms in double arithmetic: C23 -/

set_option linter.unusedSectionVars false

namespace Visqol
open Ieee
variable {F : Type} [Flt F] [Ieee F]

/-- The largest (smallest) of finite numbers is not below (above) any of them. -/
theorem extremum_best {keep : Ordering} {l : List F} {m : F} (hf : ∀ a ∈ l, ∃ x, Is a x) (h : extremum keep l = some m) :
    m ∈ l ∧ ∀ a ∈ l, ∀ x y, Is a x → Is m y → (keep = .gt → x ≤ y) ∧ (keep = .lt → y ≤ x) := by
  have key : ∀ (l' : List F) (a : F), (∀ b ∈ l', b ∈ l) → a ∈ l → l'.foldl (fun acc x => do
      let m ← acc
      let c ← Flt.partialCmp x m
      some (if c = keep then x else m)) (some a) = some m →
      m ∈ l ∧ ∀ b, b = a ∨ b ∈ l' → ∀ x y, Is b x → Is m y → (keep = .gt → x ≤ y) ∧ (keep = .lt → y ≤ x) := by
    intro l'
    induction l' with
    | nil =>
      intro a _ ha hm
      cases hm
      refine ⟨ha, fun b hb x y hx hy => ?_⟩
      rcases hb with rfl | hb
      · have e : x = y := by
          have := hx.symm.trans hy
          cases this; rfl
        exact ⟨fun _ => e.le, fun _ => e.ge⟩
      · cases hb
    | cons c l' ih =>
      intro a hl ha hm
      obtain ⟨u, hu⟩ := hf a ha
      obtain ⟨v, hv⟩ := hf c (hl c (by simp))
      rw [List.foldl_cons] at hm
      simp only [Option.bind_eq_bind, Option.bind_some, partialCmp_fin hv hu] at ih hm
      by_cases hc : (if v < u then Ordering.lt else if u < v then Ordering.gt else Ordering.eq) = keep
      · rw [if_pos hc] at hm
        obtain ⟨h1, h2⟩ := ih c (fun c hc => hl c (by simp [hc])) (hl c (by simp)) hm
        refine ⟨h1, fun b hb x y hx hy => ?_⟩
        rcases hb with rfl | hb
        · have hux : u = x := by
            have := hu.symm.trans hx
            cases this; rfl
          subst hux
          obtain ⟨k1, k2⟩ := h2 c (.inl rfl) v y hv hy
          refine ⟨fun hk => ?_, fun hk => ?_⟩
          · refine le_trans ?_ (k1 hk)
            subst hk
            by_contra hlt
            simp [not_le.mp hlt] at hc
          · refine le_trans (k2 hk) ?_
            subst hk
            by_contra hlt
            simp [not_le.mp hlt, not_lt.mpr (not_le.mp hlt).le] at hc
        · rcases List.mem_cons.mp hb with rfl | hb
          · exact h2 _ (.inl rfl) x y hx hy
          · exact h2 b (.inr hb) x y hx hy
      · rw [if_neg hc] at hm
        obtain ⟨h1, h2⟩ := ih a (fun c hc => hl c (by simp [hc])) ha hm
        refine ⟨h1, fun b hb x y hx hy => ?_⟩
        rcases hb with rfl | hb
        · exact h2 _ (.inl rfl) x y hx hy
        · rcases List.mem_cons.mp hb with rfl | hb
          · have hvx : v = x := by
              have := hv.symm.trans hx
              cases this; rfl
            subst hvx
            obtain ⟨k1, k2⟩ := h2 a (.inl rfl) u y hu hy
            refine ⟨fun hk => ?_, fun hk => ?_⟩
            · refine le_trans ?_ (k1 hk)
              subst hk
              by_contra hlt
              exact hc (by simp [not_le.mp hlt, not_lt.mpr (not_le.mp hlt).le])
            · refine le_trans (k2 hk) ?_
              subst hk
              by_contra hlt
              exact hc (by simp [not_le.mp hlt])
          · exact h2 b (.inr hb) x y hx hy
  cases l with
  | nil => cases h
  | cons a l =>
    unfold extremum at h
    obtain ⟨h1, h2⟩ := key _ a (fun b hb => hb) (by simp) h
    exact ⟨h1, fun b hb => h2 b (.inr hb)⟩

/-- Rounding a number of at most 4096 changes it by very little. -/
theorem rnd_close (F : Type) [Flt F] [Ieee F] {x : ℝ} (h : |x| ≤ 4096) : ∃ y, rnd F x = .fin y ∧ |y - x| ≤ 1 / 2 ^ 39 := by
  obtain ⟨y, hy1, hy2⟩ := rnd_acc (F := F) x (h.trans (by
    calc (4096 : ℝ) = 2 ^ 12 := by norm_num
      _ ≤ 2 ^ 1000 := pow_le_pow_right₀ (by norm_num) (by norm_num)))
  refine ⟨y, hy1, hy2.trans ?_⟩
  have h3 : (1 : ℝ) / 2 ^ 1000 ≤ 1 / 2 ^ 40 :=
    div_le_div_of_nonneg_left (by norm_num) (by positivity) (pow_le_pow_right₀ (by norm_num) (by norm_num))
  have h4 : |x| / 2 ^ 52 ≤ 1 / 2 ^ 40 := by
    rw [div_le_div_iff₀ (by norm_num) (by norm_num)]
    clear hy2 h3
    norm_num at h ⊢; linarith
  have h5 : (1 : ℝ) / 2 ^ 40 + 1 / 2 ^ 40 = 1 / 2 ^ 39 := by norm_num
  clear hy2
  generalize (1 : ℝ) / 2 ^ 1000 = T at *
  linarith

/-- C23 in double arithmetic: in a successful preparation of spectrograms without infinities every entry is finite and not negative,
some entry is exactly zero, and in a frame that both have no entry is more than 45 dB, up to 2⁻³⁰, below another entry of either. -/
theorem C23_rounded {ref deg a b : Mat F} (wr : ref.WF) (wd : deg.WF) (hr : NoInf ref) (hd : NoInf deg)
    (h : prepareSpectrograms ref deg = .ok (a, b)) :
    (∀ i < a.nrows, ∀ j < a.ncols, ∃ v, val (a.at i j) = .fin v ∧ 0 ≤ v ∧ v ≤ 4000) ∧
    (∀ i < b.nrows, ∀ j < b.ncols, ∃ v, val (b.at i j) = .fin v ∧ 0 ≤ v ∧ v ≤ 4000) ∧
    ((∃ i < a.nrows, ∃ j < a.ncols, val (a.at i j) = .fin 0) ∨ ∃ i < b.nrows, ∃ j < b.ncols, val (b.at i j) = .fin 0) ∧
    ∀ j, j < a.ncols → j < b.ncols → ∀ x y u v,
      ((∃ i < a.nrows, x = a.at i j) ∨ ∃ i < b.nrows, x = b.at i j) →
      ((∃ i < a.nrows, y = a.at i j) ∨ ∃ i < b.nrows, y = b.at i j) →
      val x = .fin u → val y = .fin v → v - 45 - 1 / 2 ^ 30 ≤ u := by
  obtain ⟨⟨floors, lowA, lowB, count, peaks, minA, minB, hA, hB⟩⟩ := prepare_ok wr wd h
  have hfl := floor_fin hr hd peaks
  have fin : ∀ (m : Mat F), NoInf m → ∀ z ∈ (Mat.ofFn m.nrows m.ncols (flooredAt floors (dbAt m))).toList, ∃ x, Is z x := by
    intro m hm z hz
    obtain ⟨i, _, j, _, rfl⟩ := Mat.mem_ofFn_toList.mp hz
    obtain ⟨x, hx, _⟩ := floored_fin hm hfl i j
    exact ⟨x, hx⟩
  obtain ⟨ma, ba⟩ := extremum_best (fin ref hr) minA
  obtain ⟨mb, bb⟩ := extremum_best (fin deg hd) minB
  obtain ⟨i1, hi1, j1, hj1, e1⟩ := Mat.mem_ofFn_toList.mp ma
  obtain ⟨i2, hi2, j2, hj2, e2⟩ := Mat.mem_ofFn_toList.mp mb
  obtain ⟨x1, hx1, b1⟩ := floored_fin hr hfl i1 j1
  obtain ⟨x2, hx2, b2⟩ := floored_fin hd hfl i2 j2
  rw [← e1] at hx1
  rw [← e2] at hx2
  have hmin : -91 ≤ min x1 x2 ∧ min x1 x2 ≤ 3600 := by rcases min_choice x1 x2 with e | e <;> rw [e] <;> assumption
  have hlow := Is.min hx1 hx2
  -- an entry of the outcome, from the value it is computed from
  have key : ∀ z : F, ∀ x, Is z x → -91 ≤ x → x ≤ 3600 → ∃ v, val (z - Flt.min lowA lowB) = .fin v ∧
      |v - (x - min x1 x2)| ≤ 1 / 2 ^ 39 ∧ (min x1 x2 ≤ x → 0 ≤ v) := by
    intro z x hx l u
    have hs := Is.sub hx hlow
    have hb2 : |x - min x1 x2| ≤ 4096 := by
      rw [abs_le]; constructor <;> linarith [hmin.1, hmin.2]
    obtain ⟨v, hv, hv2⟩ := rnd_close F hb2
    exact ⟨v, hs.trans hv, hv2, fun hle => rnd_nonneg hv (by linarith)⟩
  have e4 : (1 : ℝ) / 2 ^ 39 ≤ 1 := by norm_num
  have entry : ∀ (m : Mat F), NoInf m → (∀ z ∈ (Mat.ofFn m.nrows m.ncols (flooredAt floors (dbAt m))).toList, ∀ x, Is z x → min x1 x2 ≤ x) →
      ∀ i < m.nrows, ∀ j < m.ncols, ∃ v, val (flooredAt floors (dbAt m) i j - Flt.min lowA lowB) = .fin v ∧ 0 ≤ v ∧ v ≤ 4000 := by
    intro m hm hlo i hi j hj
    obtain ⟨x, hx, l, u⟩ := floored_fin hm hfl i j
    obtain ⟨v, hv, hc, h0⟩ := key _ x hx l u
    refine ⟨v, hv, h0 (hlo _ (Mat.mem_ofFn_toList.mpr ⟨i, hi, j, hj, rfl⟩) x hx), ?_⟩
    have := (abs_le.mp hc).2
    linarith [hmin.1]
  have loA : ∀ z ∈ (Mat.ofFn ref.nrows ref.ncols (flooredAt floors (dbAt ref))).toList, ∀ x, Is z x → min x1 x2 ≤ x :=
    fun z hz x hx => (min_le_left _ _).trans ((ba z hz x x1 hx hx1).2 rfl)
  have loB : ∀ z ∈ (Mat.ofFn deg.nrows deg.ncols (flooredAt floors (dbAt deg))).toList, ∀ x, Is z x → min x1 x2 ≤ x :=
    fun z hz x hx => (min_le_right _ _).trans ((bb z hz x x2 hx hx2).2 rfl)
  -- the values in a frame that both have: between the floor and the peak
  have band : ∀ j, j < ref.ncols → j < deg.ncols → ∃ p f, |f - (p - 45)| ≤ 1 / 2 ^ 39 ∧
      ∀ (m : Mat F), (m = ref ∨ m = deg) → ∀ i < m.nrows, ∃ x, Is (flooredAt floors (dbAt m) i j) x ∧ -91 ≤ x ∧ x ≤ 3600 ∧ f ≤ x ∧ x ≤ p := by
    intro j hj hj'
    have hjl : j < floors.length := by omega
    obtain ⟨pa, pb, h1, h2, hf⟩ := peaks j floors[j] (List.getElem?_eq_getElem hjl)
    have fcol : ∀ (m : Mat F), NoInf m → ∀ z ∈ (List.range m.nrows).map (fun i => dbAt m i j), ∃ x, Is z x ∧ -45 ≤ x ∧ x ≤ 3600 := by
      intro m hm z hz
      obtain ⟨i, _, rfl⟩ := List.mem_map.mp hz
      exact db_fin (hm.at i j)
    obtain ⟨m1, q1⟩ := extremum_best (fun z hz => (fcol ref hr z hz).imp fun _ h => h.1) h1
    obtain ⟨m2, q2⟩ := extremum_best (fun z hz => (fcol deg hd z hz).imp fun _ h => h.1) h2
    obtain ⟨p1, hp1, l1, u1⟩ := fcol ref hr _ m1
    obtain ⟨p2, hp2, l2, u2⟩ := fcol deg hd _ m2
    have hs := Is.sub (Is.max hp1 hp2) (val_45 (F := F))
    have k1 := le_max_left p1 p2
    have k2 := max_le u1 u2
    obtain ⟨f, hf1, hf2⟩ := rnd_close F (x := max p1 p2 - 45) (by rw [abs_le]; constructor <;> linarith)
    rw [hf1, ← hf] at hs
    refine ⟨max p1 p2, f, hf2, ?_⟩
    have fp : f ≤ max p1 p2 := by
      have := (abs_le.mp hf2).2
      linarith
    have go : ∀ (m : Mat F), NoInf m → (∀ i < m.nrows, ∀ x, Is (dbAt m i j) x → x ≤ max p1 p2) → ∀ i < m.nrows,
        ∃ x, Is (flooredAt floors (dbAt m) i j) x ∧ -91 ≤ x ∧ x ≤ 3600 ∧ f ≤ x ∧ x ≤ max p1 p2 := by
      intro m hm hle i hi
      obtain ⟨x, hx, l, u⟩ := db_fin (hm.at i j)
      have hv : Is (flooredAt floors (dbAt m) i j) (max f x) := by
        unfold flooredAt
        rw [List.getElem?_eq_getElem hjl]
        exact Is.max hs hx
      refine ⟨_, hv, ?_, ?_, le_max_left _ _, max_le fp (hle i hi x hx)⟩
      · exact le_trans (by linarith) (le_max_right _ _)
      · exact max_le (fp.trans k2) u
    rintro m (rfl | rfl)
    · exact go m hr fun i hi x hx => ((q1 _ (List.mem_map.mpr ⟨i, List.mem_range.mpr hi, rfl⟩) x p1 hx hp1).1 rfl).trans k1
    · exact go m hd fun i hi x hx => ((q2 _ (List.mem_map.mpr ⟨i, List.mem_range.mpr hi, rfl⟩) x p2 hx hp2).1 rfl).trans (le_max_right _ _)
  have zero : ∀ z : F, Is z (min x1 x2) → val (z - Flt.min lowA lowB) = .fin 0 := by
    intro z hz
    have := Is.sub hz hlow
    rw [sub_self, rnd_fixed (F := F) val_0 (by simp)] at this
    exact this
  have atA : ∀ i < ref.nrows, ∀ j < ref.ncols, a.at i j = flooredAt floors (dbAt ref) i j - Flt.min lowA lowB := by
    intro i hi j hj; rw [hA]; exact Mat.ofFn_at _ _ _ _ _ hi hj
  have atB : ∀ i < deg.nrows, ∀ j < deg.ncols, b.at i j = flooredAt floors (dbAt deg) i j - Flt.min lowA lowB := by
    intro i hi j hj; rw [hB]; exact Mat.ofFn_at _ _ _ _ _ hi hj
  have d1 : a.nrows = ref.nrows := by rw [hA]; simp
  have d2 : a.ncols = ref.ncols := by rw [hA]; simp
  have d3 : b.nrows = deg.nrows := by rw [hB]; simp
  have d4 : b.ncols = deg.ncols := by rw [hB]; simp
  rw [d1, d2, d3, d4]
  refine ⟨?_, ?_, ?_, ?_⟩
  · intro i hi j hj
    rw [atA i hi j hj]
    exact entry ref hr loA i hi j hj
  · intro i hi j hj
    rw [atB i hi j hj]
    exact entry deg hd loB i hi j hj
  · rcases le_total x1 x2 with hle | hle
    · refine .inl ⟨i1, hi1, j1, hj1, ?_⟩
      rw [atA i1 hi1 j1 hj1, ← e1]
      exact zero _ (by rw [min_eq_left hle]; exact hx1)
    · refine .inr ⟨i2, hi2, j2, hj2, ?_⟩
      rw [atB i2 hi2 j2 hj2, ← e2]
      exact zero _ (by rw [min_eq_right hle]; exact hx2)
  · intro j hj hj' x y u v hx hy hu hv
    obtain ⟨p, f, hpf, hband⟩ := band j hj hj'
    have get : ∀ z w, ((∃ i < ref.nrows, z = a.at i j) ∨ ∃ i < deg.nrows, z = b.at i j) → val z = .fin w →
        f - min x1 x2 - 1 / 2 ^ 39 ≤ w ∧ w ≤ p - min x1 x2 + 1 / 2 ^ 39 := by
      intro z w hz hw
      have fromKey : ∀ q t, Is q t → -91 ≤ t → t ≤ 3600 → f ≤ t → t ≤ p → val (q - Flt.min lowA lowB) = .fin w →
          f - min x1 x2 - 1 / 2 ^ 39 ≤ w ∧ w ≤ p - min x1 x2 + 1 / 2 ^ 39 := by
        intro q t hq l u lf up hqw
        obtain ⟨w', hw', hc, _⟩ := key q t hq l u
        rw [hqw] at hw'
        cases hw'
        have c1 := (abs_le.mp hc).1
        have c2 := (abs_le.mp hc).2
        constructor <;> linarith
      rcases hz with ⟨i, hi, rfl⟩ | ⟨i, hi, rfl⟩
      · rw [atA i hi j hj] at hw
        obtain ⟨t, ht, l, u, lf, up⟩ := hband ref (.inl rfl) i hi
        exact fromKey _ t ht l u lf up hw
      · rw [atB i hi j hj'] at hw
        obtain ⟨t, ht, l, u, lf, up⟩ := hband deg (.inr rfl) i hi
        exact fromKey _ t ht l u lf up hw
    have g1 := (get x u hx hu).1
    have g2 := (get y v hy hv).2
    have g3 := (abs_le.mp hpf).1
    have e5 : 3 * ((1 : ℝ) / 2 ^ 39) ≤ 1 / 2 ^ 30 := by norm_num
    linarith

/-- Two spectrograms of different sizes, with a NaN among the entries, meet the hypotheses of C23_rounded. -/
example : ∃ ref deg a b : Mat F, ref.WF ∧ deg.WF ∧ NoInf ref ∧ NoInf deg ∧ ref.ncols = 2 ∧ deg.ncols = 3 ∧
    prepareSpectrograms ref deg = .ok (a, b) := by
  have w1 := Mat.ofFn_wf 2 2 (fun i _ => if i = 0 then (1.0 : F) else 0.0 / 0.0)
  have w2 := Mat.ofFn_wf 2 3 (fun _ _ => (0.0 : F))
  have n1 : NoInf (Mat.ofFn 2 2 (fun i _ => if i = 0 then (1.0 : F) else 0.0 / 0.0)) := by
    intro r hr x hx s
    obtain ⟨i, _, j, _, rfl⟩ := Mat.mem_ofFn_toList.mp (List.mem_flatten.mpr ⟨r, hr, hx⟩)
    by_cases hi : i = 0
    · rw [if_pos hi, val_1]; simp
    · rw [if_neg hi, zero_div_zero _ _ val_0 val_0]; simp
  have n2 : NoInf (Mat.ofFn 2 3 (fun _ _ => (0.0 : F))) := by
    intro r hr x hx s
    obtain ⟨i, _, j, _, rfl⟩ := Mat.mem_ofFn_toList.mp (List.mem_flatten.mpr ⟨r, hr, hx⟩)
    rw [val_0]; simp
  obtain ⟨a, b, h, _⟩ := C24_nan_free w1 w2 (by simp) (by simp) (by simp) (by simp) n1 n2
  exact ⟨_, _, a, b, w1, w2, n1, n2, by simp, by simp, h⟩

end Visqol
