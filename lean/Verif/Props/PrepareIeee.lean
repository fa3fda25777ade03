import Verif.Lemmas.IeeePrepare

/-! # Preparation and NaN in floating point: C24 -/

set_option linter.unusedSectionVars false

namespace Visqol
open Ieee
variable {F : Type} [Flt F] [Ieee F]

/-- No entry is an infinity (NaN is allowed). -/
def NoInf (m : Mat F) : Prop := ∀ r ∈ m.rows, ∀ a ∈ r, ∀ s, val a ≠ .inf s

theorem NoInf.at {m : Mat F} (h : NoInf m) (i j : Nat) : ∀ s, val (m.at i j) ≠ .inf s := by
  intro s
  unfold Mat.at
  have h0 : val (0.0 : F) ≠ .inf s := by rw [val_0]; simp
  by_cases hi : i < m.rows.length
  · rw [show m.rows.getD i [] = m.rows[i] from by simp [List.getD_eq_getElem?_getD, hi]]
    by_cases hj : j < m.rows[i].length
    · rw [show m.rows[i].getD j 0.0 = m.rows[i][j] from by simp [List.getD_eq_getElem?_getD, hj]]
      exact h _ (List.getElem_mem hi) _ (List.getElem_mem hj) s
    · rw [List.getD_eq_getElem?_getD, List.getElem?_eq_none (by omega)]; exact h0
  · rw [show m.rows.getD i [] = [] from by rw [List.getD_eq_getElem?_getD, List.getElem?_eq_none (by omega)]; rfl]; exact h0

/-- Floors computed from two matrices without infinities. -/
theorem floor_fin {ref deg : Mat F} (hr : NoInf ref) (hd : NoInf deg) {fl : List F}
    (hp : ∀ (j : Nat) f, fl[j]? = some f → ∃ pa pb,
      extremum .gt ((List.range ref.nrows).map fun i => dbAt ref i j) = some pa ∧
      extremum .gt ((List.range deg.nrows).map fun i => dbAt deg i j) = some pb ∧ f = Flt.max pa pb - 45.0) :
    ∀ (j : Nat) f, fl[j]? = some f → ∃ x, Is f x ∧ (-91 ≤ x ∧ x ≤ 3600) := by
  intro j f hf
  obtain ⟨pa, pb, h1, h2, rfl⟩ := hp j f hf
  have key : ∀ (m : Mat F), NoInf m → ∀ q, extremum .gt ((List.range m.nrows).map fun i => dbAt m i j) = some q →
      ∃ x, Is q x ∧ -45 ≤ x ∧ x ≤ 3600 := by
    intro m hm q hq
    obtain ⟨q', hq1, hq2⟩ := extremum_fin (keep := .gt) (l := (List.range m.nrows).map fun i => dbAt m i j) (by
      intro h0; rw [h0] at hq; cases hq) (by
      intro a ha
      obtain ⟨i, _, rfl⟩ := List.mem_map.mp ha
      obtain ⟨x, hx, _⟩ := db_fin (hm.at i j)
      exact ⟨x, hx⟩)
    rw [hq] at hq2
    cases hq2
    obtain ⟨i, _, rfl⟩ := List.mem_map.mp hq1
    exact db_fin (hm.at i j)
  obtain ⟨x, hx, x1, x2⟩ := key ref hr pa h1
  obtain ⟨y, hy, y1, y2⟩ := key deg hd pb h2
  have h := Is.sub (Is.max hx hy) (val_45 (F := F))
  have m1 := le_max_left x y
  have m2 := max_le x2 y2
  have hb : |max x y - 45| ≤ 3600 := by rw [abs_le]; constructor <;> linarith
  obtain ⟨z, hz1, hz2⟩ := rnd_within_one F (hb.trans (by norm_num))
  rw [hz1] at h
  have z1 := (abs_le.mp hz2).1
  have z2 := (abs_le.mp hz2).2
  exact ⟨z, h, by linarith, by linarith⟩

theorem floored_fin {m : Mat F} (hm : NoInf m) {fl : List F} (hfl : ∀ (j : Nat) f, fl[j]? = some f → ∃ x, Is f x ∧ (-91 ≤ x ∧ x ≤ 3600))
    (i j : Nat) : ∃ x, Is (flooredAt fl (dbAt m) i j) x ∧ (-91 ≤ x ∧ x ≤ 3600) := by
  obtain ⟨x, hx, x1, x2⟩ := db_fin (hm.at i j)
  have hxb : -91 ≤ x ∧ x ≤ 3600 := ⟨by linarith, x2⟩
  unfold flooredAt
  cases hj : fl[j]? with
  | none => exact ⟨x, hx, hxb⟩
  | some f =>
    obtain ⟨y, hy, yb⟩ := hfl j f hj
    refine ⟨_, Is.max hy hx, ?_⟩
    rcases max_choice y x with e | e <;> rw [e] <;> assumption

/-- C24: two non-empty spectrograms without infinite entries can always be prepared, and every entry of the outcome is a finite
number of moderate size, whatever NaNs they contain. -/
theorem C24_nan_free {ref deg : Mat F} (wr : ref.WF) (wd : deg.WF) (hrn : 0 < ref.nrows) (hrc : 0 < ref.ncols)
    (hdn : 0 < deg.nrows) (hdc : 0 < deg.ncols) (hr : NoInf ref) (hd : NoInf deg) :
    ∃ a b, prepareSpectrograms ref deg = .ok (a, b) ∧ (∀ r ∈ a.rows, ∀ x ∈ r, ∃ v, val x = .fin v ∧ |v| ≤ 4000) ∧
      ∀ r ∈ b.rows, ∀ x ∈ r, ∃ v, val x = .fin v ∧ |v| ≤ 4000 := by
  have hx : ∀ (m : Mat F), NoInf m → 0 < m.nrows → ∀ j, (extremum .gt ((List.range m.nrows).map fun i => dbAt m i j)).isSome := by
    intro m hm hn j
    obtain ⟨q, _, hq⟩ := extremum_fin (keep := .gt) (l := (List.range m.nrows).map fun i => dbAt m i j) (by
      intro he
      have := congrArg List.length he
      simp only [List.length_map, List.length_range, List.length_nil] at this
      omega) (by
      intro a ha
      obtain ⟨i, _, rfl⟩ := List.mem_map.mp ha
      obtain ⟨x, hx, _⟩ := db_fin (hm.at i j)
      exact ⟨x, hx⟩)
    rw [hq]; rfl
  have hy : ∀ (m : Mat F) (fl : List F), NoInf m → 0 < m.nrows → 0 < m.ncols →
      (∀ (j : Nat) f, fl[j]? = some f → ∃ x, Is f x ∧ (-91 ≤ x ∧ x ≤ 3600)) →
      ∃ q, (∃ i j, q = flooredAt fl (dbAt m) i j) ∧ extremum .lt (Mat.ofFn m.nrows m.ncols (flooredAt fl (dbAt m))).toList = some q := by
    intro m fl hm hn hc hfl
    obtain ⟨q, hq1, hq2⟩ := extremum_fin (keep := .lt) (l := (Mat.ofFn m.nrows m.ncols (flooredAt fl (dbAt m))).toList) (by
      apply List.ne_nil_of_mem (a := flooredAt fl (dbAt m) 0 0)
      exact Mat.mem_ofFn_toList.mpr ⟨0, hn, 0, hc, rfl⟩) (by
      intro a ha
      obtain ⟨i, _, j, _, rfl⟩ := Mat.mem_ofFn_toList.mp ha
      obtain ⟨x, hx, _⟩ := floored_fin hm hfl i j
      exact ⟨x, hx⟩)
    obtain ⟨i, _, j, _, e⟩ := Mat.mem_ofFn_toList.mp hq1
    exact ⟨q, ⟨i, j, e⟩, hq2⟩
  obtain ⟨a, b, h⟩ := prepare_total wr wd (fun j _ _ => ⟨hx _ hr hrn j, hx _ hd hdn j⟩) (fun fl _ hp => by
    have hfl := floor_fin hr hd hp
    obtain ⟨_, _, e1⟩ := hy ref fl hr hrn hrc hfl
    obtain ⟨_, _, e2⟩ := hy deg fl hd hdn hdc hfl
    rw [e1, e2]; exact ⟨rfl, rfl⟩)
  refine ⟨a, b, h, ?_⟩
  obtain ⟨⟨floors, lowA, lowB, count, peaks, minA, minB, hA, hB⟩⟩ := prepare_ok wr wd h
  have hfl := floor_fin hr hd peaks
  obtain ⟨_, ⟨i1, j1, e1⟩, m1⟩ := hy ref floors hr hrn hrc hfl
  obtain ⟨_, ⟨i2, j2, e2⟩, m2⟩ := hy deg floors hd hdn hdc hfl
  rw [minA] at m1; cases m1
  rw [minB] at m2; cases m2
  obtain ⟨x1, hx1, b1⟩ := floored_fin hr hfl i1 j1
  obtain ⟨x2, hx2, b2⟩ := floored_fin hd hfl i2 j2
  rw [← e1] at hx1
  rw [← e2] at hx2
  have key : ∀ (m : Mat F), NoInf m → ∀ i j, ∃ v, val (flooredAt floors (dbAt m) i j - Flt.min lowA lowB) = .fin v ∧ |v| ≤ 4000 := by
    intro m hm i j
    obtain ⟨x, hx, hb⟩ := floored_fin hm hfl i j
    have h := Is.sub hx (Is.min hx1 hx2)
    have hmin : -91 ≤ min x1 x2 ∧ min x1 x2 ≤ 3600 := by rcases min_choice x1 x2 with e | e <;> rw [e] <;> assumption
    have hb2 : |x - min x1 x2| ≤ 3691 := by
      rw [abs_le]
      constructor <;> linarith [hb.1, hb.2, hmin.1, hmin.2]
    obtain ⟨z, hz, hz2⟩ := rnd_within_one F (hb2.trans (by norm_num))
    refine ⟨z, h.trans hz, ?_⟩
    have := abs_add_le (z - (x - min x1 x2)) (x - min x1 x2)
    rw [sub_add_cancel] at this
    linarith
  constructor
  · rw [hA]
    intro r hr' x hx'
    obtain ⟨i, _, j, _, rfl⟩ := Mat.mem_ofFn_toList.mp (List.mem_flatten.mpr ⟨r, hr', hx'⟩)
    exact key ref hr i j
  · rw [hB]
    intro r hr' x hx'
    obtain ⟨i, _, j, _, rfl⟩ := Mat.mem_ofFn_toList.mp (List.mem_flatten.mpr ⟨r, hr', hx'⟩)
    exact key deg hd i j

end Visqol
