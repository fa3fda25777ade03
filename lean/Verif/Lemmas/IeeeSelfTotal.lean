import Verif.Lemmas.IeeeSelfRun
import Verif.Lemmas.IeeeSum
import Verif.Lemmas.IeeeCompare
import Verif.Props.AggregateRounded

/-! # A signal compared with itself in floating point: the total of the similarities -/

set_option linter.unusedSectionVars false

namespace Visqol
open Ieee
variable {F : Type} [Flt F] [Ieee F]

theorem sum_le_sum_get {l l' : List ℝ} (h : l.length = l'.length) (hle : ∀ (k : Nat) x y, l[k]? = some x → l'[k]? = some y → x ≤ y) : l.sum ≤ l'.sum := by
  refine List.Forall₂.sum_le_sum ?_
  rw [List.forall₂_iff_get]
  exact ⟨h, fun k h1 h2 => hle k _ _ (List.getElem?_eq_getElem h1) (List.getElem?_eq_getElem h2)⟩

variable [Libm F]

/-- The similarity of two patches with levels of at most 4096. -/
theorem measure_bounded {p : Profile} {a b : Mat F} {n : PatchSim F} (wa : a.WF) (wb : b.WF) (ha : a.Pw 12) (hb : b.Pw 12) (hnb : a.nrows ≤ 32)
    (hc : a.ncols ≤ 2 ^ 32) (h : measurePatchSimilarity p a b = .ok n) : ∃ x, Is n.similarity x ∧ |x| ≤ 2 ^ 18 := by
  obtain ⟨hs, h1, h2⟩ := measure_ok_inv h
  have hmod := measure_moderate ha hb wa wb hs h1 h2 hc h
  have hfm : FromMeasure p a.nrows n := ⟨⟨a, b, n, wa, wb, rfl, hs.1.symm, h, rfl, rfl, .inl ⟨rfl, rfl⟩⟩⟩
  have hm18 : ∀ c ∈ n.freqBandMeans, ∃ x, val c = .fin x ∧ |x| ≤ 2 ^ 18 := fun c hc => by
    obtain ⟨x, k1, k2⟩ := hmod c hc
    exact ⟨x, k1, k2.trans (by norm_num)⟩
  obtain ⟨y, hy, hye⟩ := hfm.similarity_mean hnb hm18
  refine ⟨y, hy, ?_⟩
  have hb : ∀ x ∈ n.freqBandMeans.map number, |x| ≤ 160000 := by
    intro x hx
    obtain ⟨c, hc, rfl⟩ := List.mem_map.mp hx
    obtain ⟨x, k1, k2⟩ := hmod c hc
    rw [number_of k1]; exact k2
  have hsum := abs_sum_le hb
  have hl : 0 < n.freqBandMeans.length := by rw [hfm.lengths.1]; exact h1
  have hmean : |mean (n.freqBandMeans.map number)| ≤ 160000 := by
    unfold mean
    have hlp : (0 : ℝ) < (n.freqBandMeans.map number).length := by rw [List.length_map]; exact_mod_cast hl
    rw [abs_div, abs_of_pos hlp, div_le_iff₀ hlp]
    linarith
  have := abs_add_le (y - mean (n.freqBandMeans.map number)) (mean (n.freqBandMeans.map number))
  rw [sub_add_cancel] at this
  refine this.trans ((add_le_add hye hmean).trans (by norm_num))

variable [RustFft F] {p : Profile} {nb : Nat} {fb : FilterBank F} {ref : AudioSignal F} {w : AnalysisWindow F}
  {pc : PatchCreator} {mapper : QualityMapper F} {sw : Nat} {res : SimilarityResult F}

/-- Coarse matching of two signals with the same spectrogram, in floating point: the similarities total at least 0.989 per patch. -/
theorem Stages.same_coarse_total {deg : AudioSignal F} (st : Stages p nb fb ref deg w pc mapper sw res) (hpc : pc = .vad 30 ∨ pc = .image 20)
    (hsame : st.degM = st.refM) (hlev : st.refM.Pw 12) (hnb : nb ≤ 32) (hsw : sw ≤ 2 ^ 15)
    (hcover : st.refM.ncols ≤ sw * pc.patchSize + 1) (hlen : ref.data.length + 30 * sw < 2147483647) :
    (∀ q ∈ st.coarse, ∃ x, Is q.similarity x) ∧
    st.coarse.length ≤ 2 ^ 20 ∧ (st.coarse.length : ℝ) * (9895 / 10000) ≤ (st.coarse.map fun q => number q.similarity).sum := by
  obtain ⟨w1, w2, s1, s2, s3, s4⟩ := st.shapes
  obtain ⟨hs, h30⟩ := st.sorted_ix hpc (by omega)
  have hpp : 0 < pc.patchSize ∧ pc.patchSize ≤ 30 := by rcases hpc with rfl | rfl <;> decide
  obtain ⟨c1, c2⟩ := createPatches_ok st.created w1
  have hcols := @numColumns_le ref.data.length w.size w.hop
  have hfound := st.found
  rw [wrapI32_of_mem (by omega) (by omega), hsame] at hfound
  have hget : ∀ (k : Nat) i, st.ix[k]? = some i → st.patches[k]? = some ⟨pc.patchSize, st.refM.rows.map fun r => (r.drop i).take pc.patchSize⟩ ∧
      i + pc.patchSize ≤ st.refM.ncols := fun k i hk => createPatches_get st.created hk
  have hin : ∀ i ∈ st.ix, i + pc.patchSize ≤ st.refM.ncols := by
    intro i hi
    obtain ⟨k, hk⟩ := List.getElem?_of_mem hi
    exact (hget k i hk).2
  have hmul : sw * pc.patchSize ≤ 30 * sw := by rw [Nat.mul_comm]; exact Nat.mul_le_mul_right _ hpp.2
  have hixl := (st.patches_le hpc (by omega)).1
  have hcast : ((sw : Int) * (pc.patchSize : Int)) = ((sw * pc.patchSize : Nat) : Int) := by push_cast; rfl
  have hppw := createPatches_pw st.created hlev
  have hq32 : ∀ q ∈ st.patches, q.WF ∧ q.nrows = nb ∧ q.ncols = pc.patchSize := fun q hq => ⟨(c2 q hq).1, (c2 q hq).2.1.trans s1, (c2 q hq).2.2⟩
  have hbd : ∀ (k o : Nat) m n, st.patches[k]? = some m → measurePatchSimilarity p m (st.refM.window o m.ncols) = .ok n →
      ∃ x, Is n.similarity x ∧ |x| ≤ 2 ^ 18 := by
    intro k o m n hm hn
    have hm := List.mem_of_getElem? hm
    obtain ⟨u1, u2, u3⟩ := hq32 m hm
    exact measure_bounded u1 (window_wf _ _ _).1 (hppw m hm) (hlev.window o m.ncols) (by omega) (by omega) hn
  have hsw15 : sw * pc.patchSize ≤ 2 ^ 15 * 30 := Nat.mul_le_mul hsw hpp.2
  obtain ⟨c, t, k1, k2, k3, k4, ⟨T, hT⟩, k6⟩ := C33_optimal_rounded (S := 2 ^ 18) (nb := nb) (pp := pc.patchSize) hfound c1 hq32 w1 (by omega) (by omega)
    (by omega) (fun i hi => by have := hin i hi; rw [hcast]; omega)
    (fun i hi => by have := hin i hi; rw [hcast]; omega) (by norm_num) (two_pow_mono (by norm_num))
    (fun k o m n hm _ hn => hbd k o m n hm hn)
  have hcl : st.coarse.length ≤ st.ix.length := st.coarse_ok.2.1
  have hcpos : 0 < st.coarse.length := by
    obtain ⟨o, ho⟩ := k2.first
    have := (List.getElem?_eq_some_iff.mp ho).1
    omega
  have hn20 : st.coarse.length ≤ 2 ^ 20 := by omega
  -- the choice of the same places
  obtain ⟨t', j1, ⟨T', hT'⟩, j3⟩ := k6 ((st.ix.take st.coarse.length).map some) (by rw [List.length_map, List.length_take]; omega) (by
    have hfm : ((st.ix.take st.coarse.length).map some).filterMap id = st.ix.take st.coarse.length := by
      rw [List.filterMap_map]; simp
    refine ⟨?_, ?_, ?_⟩
    · unfold InOrder; rw [hfm]; exact hs.sublist (List.take_sublist _ _)
    · rw [hfm]
      intro o ho
      have := hin o (List.mem_of_mem_take ho)
      omega
    · refine ⟨st.ix[0]'(by omega), ?_⟩
      rw [List.getElem?_map, List.getElem?_take, if_pos hcpos, List.getElem?_eq_getElem (by omega)]; rfl)
  rw [Is.lt hT hT'] at j3
  have hTT : T' ≤ T := not_lt.mp (by simpa using j3)
  -- exact totals
  have hval : ∀ k o, k < st.coarse.length → o < st.refM.ncols → Is (simAt p st.patches st.refM k o) (number (simAt p st.patches st.refM k o)) ∧
      |number (simAt p st.patches st.refM k o)| ≤ 2 ^ 18 := by
    intro k o hk ho
    have hk' : st.patches[k]? = some (st.patches[k]'(by omega)) := List.getElem?_eq_getElem _
    unfold simAt
    rw [hk']
    dsimp only
    split
    · rename_i n hn
      obtain ⟨x, x1, x2⟩ := hbd k o _ n hk' hn
      rw [number_of x1]; exact ⟨x1, x2⟩
    · rw [number_of val_0]; exact ⟨val_0, by norm_num⟩
  have hB : (2 : ℝ) ^ 18 ≤ 2 ^ 900 := two_pow_mono (by norm_num)
  obtain ⟨x, x1, x2, _⟩ := (runningTotal_acc (B := 2 ^ 18) (by norm_num) hB hval (by omega) c (by omega) k2.inside).2 t k4
  have hxT : x = T := by
    have := x1.symm.trans hT
    cases this; rfl
  obtain ⟨x', x1', x2', _⟩ := (runningTotal_acc (B := 2 ^ 18) (by norm_num) hB hval (by omega) ((st.ix.take st.coarse.length).map some)
    (by rw [List.length_map, List.length_take]; omega) (by
      rw [List.filterMap_map]
      intro o ho
      simp at ho
      have := hin o (List.mem_of_mem_take ho)
      omega)).2 t' j1
  have hxT' : x' = T' := by
    have := x1'.symm.trans hT'
    cases this; rfl
  subst hxT hxT'
  clear hB
  rw [List.length_map, List.length_take, min_eq_left hcl] at x2'
  rw [k1] at x2
  have e1 : totalSim (fun k o => number (simAt p st.patches st.refM k o)) c = (st.coarse.map fun q => number q.similarity).sum := by
    unfold totalSim
    congr 1
    apply List.ext_getElem?
    intro k
    by_cases hk : k < st.coarse.length
    · obtain ⟨r, y, m, g1, g2, g3, g4⟩ := k3 k hk
      rw [List.getElem?_mapIdx, List.getElem?_map, g1, g2]
      simp only [Option.map_some, Option.some.injEq]
      cases y with
      | none =>
        have g4 : Unmatched r := g4
        rw [g4.similarity, number_of val_0]; rfl
      | some o =>
        have g4 : MatchedAt p st.refM m _ _ o r := g4
        obtain ⟨n, n1, n2, _⟩ := g4.scores
        simp only [Option.elim_some]
        unfold simAt
        rw [g3]
        dsimp only
        rw [n1, n2]
    · rw [List.getElem?_eq_none (by rw [List.length_mapIdx]; omega), List.getElem?_eq_none (by rw [List.length_map]; omega)]
  have e2 : (st.coarse.length : ℝ) * (99 / 100) ≤ totalSim (fun k o => number (simAt p st.patches st.refM k o)) ((st.ix.take st.coarse.length).map some) := by
    unfold totalSim
    have hl : (((st.ix.take st.coarse.length).map some).mapIdx fun k (x : Option Nat) => x.elim (0 : ℝ) fun o => number (simAt p st.patches st.refM k o)).length = st.coarse.length := by
      rw [List.length_mapIdx, List.length_map, List.length_take]; omega
    have := List.card_nsmul_le_sum (((st.ix.take st.coarse.length).map some).mapIdx fun k (x : Option Nat) => x.elim (0 : ℝ) fun o => number (simAt p st.patches st.refM k o)) (99 / 100) (by
      intro y hy
      obtain ⟨k, hk, hy⟩ := List.getElem_of_mem hy
      rw [hl] at hk
      rw [List.getElem_mapIdx, List.getElem_map, List.getElem_take, Option.elim_some] at hy
      have hi : st.ix[k]? = some (st.ix[k]'(by omega)) := List.getElem?_eq_getElem _
      generalize st.ix[k]'(by omega) = i at *
      obtain ⟨p1, p2⟩ := hget k i hi
      obtain ⟨u1, u2, u3⟩ := hq32 _ (List.mem_of_getElem? p1)
      have hmeas : ∃ n, measurePatchSimilarity p ⟨pc.patchSize, st.refM.rows.map fun r => (r.drop i).take pc.patchSize⟩
          ⟨pc.patchSize, st.refM.rows.map fun r => (r.drop i).take pc.patchSize⟩ = .ok n :=
        measure_of_shape p u1 u1 ⟨rfl, rfl⟩ (by
          rw [u2]
          by_contra h0
          have hnil : st.refM.rows.length = 0 := by
            have : st.refM.nrows = 0 := by omega
            exact this
          have hmv := st.vn
          have hfl := st.fvn
          obtain ⟨q, hq1, hq2⟩ := perPatchMean_ok hfl
          have hql := (st.patches_ok.2.2 q (List.mem_of_getElem? hq1)).lengths.1
          rw [hql] at hq2
          have : res.fvnsim = [] := List.length_eq_zero_iff.mp (by omega)
          rw [this] at hmv
          simp [meanOpt] at hmv) hpp.1
      obtain ⟨n, hn⟩ := hmeas
      have hsim : simAt p st.patches st.refM k i = n.similarity := by
        unfold simAt
        rw [p1]
        dsimp only
        rw [window_eq_cut w1 p2, hn]
      obtain ⟨z, z1, z2⟩ := (measure_self_wide u1 (hppw _ (List.mem_of_getElem? p1)) (by omega) (by show pc.patchSize ≤ _; omega) hn).2
      rw [← hy, hsim, number_of z1]
      have := (abs_le.mp z2).1
      linarith)
    rw [hl, nsmul_eq_mul] at this
    exact this
  refine ⟨?_, hn20, ?_⟩
  · intro q hq
    obtain ⟨k, hk, hq⟩ := List.getElem_of_mem hq
    obtain ⟨r, y, m, g1, g2, g3, g4⟩ := k3 k hk
    rw [List.getElem?_eq_getElem hk] at g1
    cases g1
    rw [← hq]
    cases y with
    | none =>
      have g4 : Unmatched _ := g4
      exact ⟨0, by rw [g4.similarity]; exact val_0⟩
    | some o =>
      have g4 : MatchedAt p st.refM m _ _ o _ := g4
      obtain ⟨n, n1, n2, _⟩ := g4.scores
      obtain ⟨z, z1, _⟩ := hbd k o m n g3 n1
      exact ⟨z, by rw [n2]; exact z1⟩
  · rw [e1] at x2
    have hnr : (st.coarse.length : ℝ) ≤ 2 ^ 20 := by exact_mod_cast hn20
    have hn1 : (1 : ℝ) ≤ st.coarse.length := by exact_mod_cast hcpos
    have herr : sumErr (2 ^ 18) st.coarse.length ≤ st.coarse.length * (1 / 2 ^ 12) := by
      unfold sumErr
      rw [mul_assoc]
      refine mul_le_mul_of_nonneg_left ?_ (by linarith)
      have : (st.coarse.length + 1 : ℝ) ≤ 2 ^ 21 := by
        refine (add_le_add hnr le_rfl).trans ?_
        norm_num
      exact (mul_le_mul_of_nonneg_right this (by norm_num)).trans (by norm_num)
    have y1 := (abs_le.mp x2).2
    have y2 := (abs_le.mp x2').1
    generalize (st.coarse.length : ℝ) = n at *
    generalize (st.coarse.map fun q => number q.similarity).sum = A at *
    generalize totalSim (fun k o => number (simAt p st.patches st.refM k o)) ((st.ix.take st.coarse.length).map some) = A' at *
    generalize sumErr (2 ^ 18) st.coarse.length = E at *
    norm_num at *
    linarith

end Visqol
