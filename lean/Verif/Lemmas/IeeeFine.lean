import Verif.Lemmas.IeeeTotal

/-! # Floating point: fine alignment of ordinary signals does not fail -/

set_option linter.unusedSectionVars false

namespace Visqol
open Ieee

variable {F : Type} [Flt F] [Ieee F]

theorem rnd_one_le {x y : ℝ} (h : rnd F x = .fin y) (hx : 1 ≤ x) : 1 ≤ y := rnd_lower (a := (1.0 : F)) val_1 h hx

/-- A natural number is a lower (or upper) bound of a number exactly when it is one of its rounding. -/
theorem rnd_nat_le {x y : ℝ} {n : ℕ} (hn : n ≤ 2 ^ 53) (h : rnd F x = .fin y) (hx : (n : ℝ) ≤ x) : (n : ℝ) ≤ y :=
  rnd_lower (a := (Flt.ofNat n : F)) (val_nat hn) h hx

theorem rnd_le_nat {x y : ℝ} {n : ℕ} (hn : n ≤ 2 ^ 53) (h : rnd F x = .fin y) (hx : x ≤ (n : ℝ)) : y ≤ (n : ℝ) :=
  rnd_upper (a := (Flt.ofNat n : F)) (val_nat hn) h hx

theorem toUsize_between {a : F} {x : ℝ} {n : ℕ} (h : Is a x) (h1 : (n : ℝ) ≤ x) (h2 : x ≤ (n : ℝ) + 1) (hn : n ≤ 2 ^ 53) :
    n ≤ Flt.toUsize a ∧ Flt.toUsize a ≤ n + 1 := by
  have h0 : (0 : ℝ) ≤ x := (Nat.cast_nonneg n).trans h1
  have hn' : (n : ℝ) ≤ 9007199254740992 := by exact_mod_cast hn
  rw [toUsize_fin h h0 (by linarith)]
  refine ⟨Nat.le_floor h1, ?_⟩
  apply Nat.floor_le_of_le
  push_cast
  exact h2

/-- The stretch of a signal that a patch of `k` columns stands for, in floating point: its length is that of the patch up to two
samples, and its samples come from the signal or are zero. -/
theorem slice_patch' {s : AudioSignal F} {W o k : ℕ} (hW : W ≤ 2 ^ 40) (h0 : 0 < s.sampleRate)
    (hsr : s.sampleRate < 4294967296) (hok : (o + k) * W ≤ 2 ^ 42) (ho : o ≤ 2 ^ 42) (hk : k ≤ 2 ^ 42) (hk1 : 4 ≤ k * W)
    (hin : o * W / 4 ≤ s.data.length) (hlen : s.data.length ≤ 2 ^ 40) {fd : F}
    (hfd : fd = Flt.ofNat W * 0.25 / Flt.ofNat s.sampleRate) :
    ∃ out, sliceSignal s (Flt.ofNat o * fd) (Flt.ofNat o * fd + fd * Flt.ofNat k) = .ok out ∧ out.sampleRate = s.sampleRate ∧
      k * W ≤ 4 * out.data.length + 4 ∧ 4 * out.data.length ≤ k * W + 8 ∧ ∀ a ∈ out.data, a ∈ s.data ∨ a = 0.0 := by
  obtain ⟨r1, r2, r3, r4, r5⟩ := frame_times (F := F) hW h0 hsr hok ho hk hfd
  have hm : (o + k) * W = o * W + k * W := Nat.add_mul _ _ _
  have hbig : (((o + k) * W : ℕ) : ℝ) / 4 ≤ 2 ^ 40 := by
    have : (((o + k) * W : ℕ) : ℝ) ≤ 2 ^ 42 := by exact_mod_cast hok
    norm_num at this ⊢
    linarith
  have hbig2 : ((o * W : ℕ) : ℝ) / 4 ≤ 2 ^ 40 := by
    have : ((o * W : ℕ) : ℝ) ≤ (((o + k) * W : ℕ) : ℝ) := by exact_mod_cast (show o * W ≤ (o + k) * W by omega)
    linarith
  obtain ⟨a, ea, a1, a2⟩ := toUsize_rel r4 (by norm_num at hbig2 ⊢; linarith) (by positivity) (by norm_num) (1 / 100)
    (by norm_num at hbig2 ⊢; linarith)
  obtain ⟨b, eb, b1, b2⟩ := toUsize_rel r5 (by norm_num at hbig ⊢; linarith) (by positivity) (by norm_num) (1 / 100)
    (by norm_num at hbig ⊢; linarith)
  have hlt : Flt.lt (Flt.ofNat o * fd) (0.0 : F) = false := by
    obtain ⟨x0, y, hy, he⟩ := r2
    rw [Is.lt hy (val_0 (F := F)), decide_eq_false_iff_not, not_lt]
    have := abs_le.mp he
    have : 1 / 2 ^ 47 * (((o * W : ℕ) : ℝ) / (4 * s.sampleRate : ℕ)) ≤ ((o * W : ℕ) : ℝ) / (4 * s.sampleRate : ℕ) := by
      have : (1 : ℝ) / 2 ^ 47 ≤ 1 := by norm_num
      nlinarith
    linarith
  -- what is appended
  obtain ⟨y0, hy, hyb⟩ : ∃ y, Is ((Flt.ofNat o * fd + fd * Flt.ofNat k) * Flt.ofNat s.sampleRate) y ∧
      ((b : ℝ) ≤ y ∧ y < b + 1) := by
    obtain ⟨x0, y, hy, he⟩ := r5
    have h1 := abs_le.mp he
    have hx : 1 / 2 ^ 47 * ((((o + k) * W : ℕ) : ℝ) / 4) ≤ (((o + k) * W : ℕ) : ℝ) / 4 := by
      have : (1 : ℝ) / 2 ^ 47 ≤ 1 := by norm_num
      nlinarith
    have hy0 : 0 ≤ y := by linarith
    have hf := toUsize_fin hy hy0 (by
      have h40 : (2 : ℝ) ^ 40 < 4611686018427387904 := by norm_num
      linarith [h1.2])
    refine ⟨y, hy, ?_, ?_⟩
    · rw [← eb, hf]; exact Nat.floor_le hy0
    · rw [← eb, hf]; exact Nat.lt_floor_add_one y
  rw [hm] at b1 b2 hok
  generalize hX : o * W = X at *
  generalize hY : k * W = Y at *
  -- the bounds in whole samples
  have A1 : 4 * a ≤ X := by
    have : (4 * a : ℝ) < X + 1 := by linarith
    have : 4 * a < X + 1 := by exact_mod_cast this
    omega
  have A2 : X ≤ 4 * a + 4 := by
    have : (X : ℝ) < 4 * a + 5 := by linarith
    have : X < 4 * a + 5 := by exact_mod_cast this
    omega
  have B1 : 4 * b ≤ X + Y := by
    have : (4 * b : ℝ) < ((X + Y : ℕ) : ℝ) + 1 := by linarith
    have : 4 * b < X + Y + 1 := by exact_mod_cast this
    omega
  have B2 : X + Y ≤ 4 * b + 4 := by
    have : ((X + Y : ℕ) : ℝ) < 4 * b + 5 := by linarith
    have : X + Y < 4 * b + 5 := by exact_mod_cast this
    omega
  have hab : a ≤ b := by omega
  have hL : Is (Flt.ofNat s.data.length : F) s.data.length := val_nat (hlen.trans (by norm_num))
  have hsub := Is.sub hy hL
  have hbb : (b : ℝ) ≤ 2199023255552 := by
    have : b ≤ 2199023255552 := by omega
    exact_mod_cast this
  have hll : (s.data.length : ℝ) ≤ 1099511627776 := by exact_mod_cast hlen
  have hl0 : (0 : ℝ) ≤ s.data.length := Nat.cast_nonneg _
  obtain ⟨e, he, _⟩ := rnd_fin F (x := y0 - s.data.length) (by
    rw [abs_le]
    have h50 : (2 : ℝ) ^ 50 ≤ 2 ^ 1000 := two_pow_mono (by norm_num)
    generalize (2 : ℝ) ^ 1000 = T at *
    have hb0 : (0 : ℝ) ≤ b := Nat.cast_nonneg _
    rw [show (2 : ℝ) ^ 50 = 1125899906842624 by norm_num] at h50
    constructor <;> linarith [hyb.1, hyb.2])
  have hextra : (s.data.length ≤ b → b - s.data.length ≤ Flt.toUsize ((Flt.ofNat o * fd + fd * Flt.ofNat k) * Flt.ofNat s.sampleRate - Flt.ofNat s.data.length : F) ∧
      Flt.toUsize ((Flt.ofNat o * fd + fd * Flt.ofNat k) * Flt.ofNat s.sampleRate - Flt.ofNat s.data.length : F) ≤ b - s.data.length + 1) ∧
      (b < s.data.length → Flt.toUsize ((Flt.ofNat o * fd + fd * Flt.ofNat k) * Flt.ofNat s.sampleRate - Flt.ofNat s.data.length : F) = 0) := by
    constructor
    · intro hle
      have hc : ((b - s.data.length : ℕ) : ℝ) = b - s.data.length := Nat.cast_sub hle
      have hc1 : ((b - s.data.length + 1 : ℕ) : ℝ) = b - s.data.length + 1 := by push_cast [Nat.cast_sub hle]; ring
      refine toUsize_between (hsub.trans he) (rnd_nat_le (F := F) (by omega) he (by rw [hc]; linarith)) ?_ (by omega)
      have := rnd_le_nat (F := F) (n := b - s.data.length + 1) (by omega) he (by rw [hc1]; linarith)
      rw [hc1] at this
      rw [hc]; exact this
    · intro hlt
      refine toUsize_nonpos' (hsub.trans he) ?_
      have hle : ((b + 1 : ℕ) : ℝ) ≤ s.data.length := by exact_mod_cast hlt
      have := rnd_le_nat (F := F) (n := 0) (by norm_num) he (by push_cast at hle ⊢; linarith)
      simpa using this
  unfold sliceSignal
  dsimp only
  rw [ea, eb, hlt]
  generalize Flt.toUsize ((Flt.ofNat o * fd + fd * Flt.ofNat k) * Flt.ofNat s.sampleRate - Flt.ofNat s.data.length : F) = ex at *
  rw [sliceM_of_le (by omega) (by omega)]
  simp only [ok_bind, Bool.false_eq_true, if_false]
  refine ⟨_, rfl, rfl, ?_, ?_, ?_⟩
  · dsimp only
    split <;> simp only [List.length_append, List.length_replicate, List.length_take, List.length_drop] <;> omega
  · dsimp only
    split <;> simp only [List.length_append, List.length_replicate, List.length_take, List.length_drop] <;> omega
  · dsimp only
    intro x hx
    split at hx
    · rcases List.mem_append.mp hx with hx | hx
      · exact .inl (List.mem_of_mem_drop (List.mem_of_mem_take hx))
      · exact .inr (List.eq_of_mem_replicate hx)
    · exact .inl (List.mem_of_mem_drop (List.mem_of_mem_take hx))

/-- A patch whose reported interval is not empty counts at least one frame. -/
def HasFrames (fd : F) (r : PatchSim F) : Prop := 1 ≤ Flt.toUsize (Flt.ceil ((r.refEnd - r.refStart) / fd))

theorem hasFrames_of [Libm F] {fd s e : F} {f x y : ℝ} (hfd : Is fd f) (hf : Mid f) (hf0 : 0 < f) (hs : Is s x) (he : Is e y)
    (hxy : x < y) (hm : Mid (y - x)) : 1 ≤ Flt.toUsize (Flt.ceil ((e - s) / fd)) := by
  have hd : Rel (e - s) (y - x) (0 + 1 / 2 ^ 50) := rel_round (.inl hm) (Is.sub he hs) (by simp) le_rfl (by positivity)
  obtain ⟨_, q, hq, hq'⟩ := Rel.div_exact hd hfd hm hf hf0 (by norm_num) (by norm_num)
  have hpos : 0 < (y - x) / f := div_pos (by linarith) hf0
  have hub : (y - x) / f ≤ 2 ^ 400 := by
    rw [div_le_iff₀ hf0]
    rcases hm with h | ⟨_, h⟩
    · rw [h]; positivity
    · rcases hf with hz | ⟨hf1, _⟩
      · exact absurd hz hf0.ne'
      · calc y - x ≤ 2 ^ 200 := h
          _ = 2 ^ 400 * (1 / 2 ^ 200) := by rw [show (400 : ℕ) = 200 + 200 by norm_num, pow_add]; field_simp
          _ ≤ 2 ^ 400 * f := mul_le_mul_of_nonneg_left hf1 (by positivity)
  clear hm hf
  generalize (y - x) / f = Q at *
  have hq1 := (abs_le.mp hq').1
  have hq2 := (abs_le.mp hq').2
  have hT : (2 : ℝ) ^ 400 ≤ 2 ^ 900 := two_pow_mono (by norm_num)
  have hT2 : (4 : ℝ) * 2 ^ 900 ≤ 2 ^ 1000 := by
    rw [show (1000 : ℕ) = 900 + 100 by norm_num, pow_add, mul_comm]
    exact mul_le_mul_of_nonneg_left (by norm_num) (by positivity)
  have h1T : (1 : ℝ) ≤ 2 ^ 900 := one_le_pow₀ (by norm_num)
  have hQ9 : Q ≤ 2 ^ 900 := hub.trans hT
  clear hub hT
  have hfin : ∀ x : ℝ, |x| ≤ 2 ^ 1000 → ∃ y, rnd F x = .fin y ∧ |y| ≤ 2 * |x| + 1 := fun x h => rnd_fin F h
  generalize (2 : ℝ) ^ 900 = T at *
  generalize (2 : ℝ) ^ 1000 = T2 at *
  have hq0 : 0 < q := by norm_num at hq1; linarith
  have hqT : q ≤ 2 * T := by norm_num at hq2; linarith
  have hc1 : (1 : ℤ) ≤ ⌈q⌉ := Int.one_le_ceil_iff.mpr hq0
  have hc1' : (1 : ℝ) ≤ (⌈q⌉ : ℝ) := by exact_mod_cast hc1
  have hc2 : (⌈q⌉ : ℝ) ≤ T2 := by have := Int.ceil_lt_add_one q; linarith
  obtain ⟨v, hv, _⟩ := hfin (⌈q⌉ : ℝ) (by rw [abs_of_nonneg (by linarith)]; exact hc2)
  have hv1 := rnd_one_le hv hc1'
  have hval : val (Flt.ceil ((e - s) / fd)) = .fin v := (Libm.ceil_val _ _ hq).trans hv
  rw [toUsize_val, hval]
  show 1 ≤ (realToInt 0 18446744073709551615 v).toNat
  unfold realToInt realTrunc
  rw [if_pos (by linarith)]
  have : (1 : ℤ) ≤ ⌊v⌋ := Int.le_floor.mpr (by exact_mod_cast hv1)
  omega

theorem mid_between {sr : ℕ} {x : ℝ} (h0 : 0 < sr) (hsr : sr < 4294967296) (h1 : 1 / 8 ≤ x * sr) (h2 : x * sr ≤ 2 ^ 50) : Mid x := by
  have hs0 : (1 : ℝ) ≤ sr := by exact_mod_cast h0
  have hs1 : (sr : ℝ) ≤ 4294967296 := by exact_mod_cast hsr.le
  have hx : 0 < x := by
    by_contra hc
    nlinarith
  right
  constructor
  · have : (1 : ℝ) / 2 ^ 200 ≤ 1 / 2 ^ 35 := div_le_div_of_nonneg_left (by norm_num) (by positivity) (two_pow_mono (by norm_num))
    refine this.trans ?_
    rw [div_le_iff₀ (by positivity), show (2 : ℝ) ^ 35 = 8 * 4294967296 by norm_num]
    nlinarith
  · have : (2 : ℝ) ^ 50 ≤ 2 ^ 200 := two_pow_mono (by norm_num)
    refine le_trans ?_ this
    nlinarith

theorem frame_duration {W sr : ℕ} (h4 : 4 ≤ W) (hW : W ≤ 2 ^ 40) (h0 : 0 < sr) (hsr : sr < 4294967296) {fd : F}
    (hfd : fd = Flt.ofNat W * 0.25 / Flt.ofNat sr) : ∃ f, Is fd f ∧ Mid f ∧ 0 < f := by
  obtain ⟨⟨_, f, hf, he⟩, _⟩ := frame_times (F := F) (o := 0) (k := 0) hW h0 hsr (by simp) (by simp) (by simp) hfd
  have hs0 : (0 : ℝ) < sr := by exact_mod_cast h0
  have hx : (W : ℝ) / (4 * sr : ℕ) * sr = W / 4 := by push_cast; field_simp
  have hW4 : (4 : ℝ) ≤ W := by exact_mod_cast h4
  have hW40 : (W : ℝ) ≤ 1099511627776 := by exact_mod_cast hW
  have hx0 : 0 < (W : ℝ) / (4 * sr : ℕ) := by positivity
  generalize (W : ℝ) / (4 * sr : ℕ) = D at *
  have h1 := (abs_le.mp he).1
  have h2 := (abs_le.mp he).2
  have hlo : D / 2 ≤ f := by norm_num at h1; linarith
  have hhi : f ≤ 2 * D := by norm_num at h2; linarith
  have hlo' : D / 2 * sr ≤ f * sr := mul_le_mul_of_nonneg_right hlo hs0.le
  have hhi' : f * sr ≤ 2 * D * sr := mul_le_mul_of_nonneg_right hhi hs0.le
  refine ⟨f, hf, mid_between h0 hsr ?_ ?_, by linarith⟩
  · have e : D / 2 * sr = D * sr / 2 := by ring
    rw [e, hx] at hlo'
    linarith
  · have e : 2 * D * sr = 2 * (D * sr) := by ring
    rw [e, hx] at hhi'
    norm_num
    linarith

/-- The interval of a coarse result counts at least one frame; its start is a moderate number. -/
theorem coarse_frames [Libm F] {W sr i k : ℕ} (h4 : 4 ≤ W) (hW : W ≤ 2 ^ 40) (h0 : 0 < sr) (hsr : sr < 4294967296) (hk1 : 1 ≤ k)
    (hok : (i + k) * W ≤ 2 ^ 42) (hi : i ≤ 2 ^ 42) (hk : k ≤ 2 ^ 42) {fd : F} (hfd : fd = Flt.ofNat W * 0.25 / Flt.ofNat sr) :
    1 ≤ Flt.toUsize (Flt.ceil ((Flt.ofNat i * fd + fd * Flt.ofNat k - Flt.ofNat i * fd) / fd)) ∧
      ∃ x, Is (Flt.ofNat i * fd) x ∧ |x| * sr ≤ 2 ^ 41 := by
  obtain ⟨f, hf, hmf, hf0⟩ := frame_duration (F := F) h4 hW h0 hsr hfd
  obtain ⟨_, ⟨_, x, hx, hxe⟩, ⟨_, y, hy, hye⟩, _⟩ := frame_times (F := F) hW h0 hsr hok hi hk hfd
  have hs0 : (0 : ℝ) < sr := by exact_mod_cast h0
  have hm : (i + k) * W = i * W + k * W := Nat.add_mul _ _ _
  have hkW : 4 ≤ k * W := by nlinarith
  have e1 : ((i * W : ℕ) : ℝ) / (4 * sr : ℕ) * sr = ((i * W : ℕ) : ℝ) / 4 := by push_cast; field_simp
  have e2 : (((i + k) * W : ℕ) : ℝ) / (4 * sr : ℕ) * sr = (((i + k) * W : ℕ) : ℝ) / 4 := by push_cast; field_simp
  have b1 : ((i * W : ℕ) : ℝ) + 4 ≤ (((i + k) * W : ℕ) : ℝ) := by exact_mod_cast (show i * W + 4 ≤ (i + k) * W by omega)
  have b2 : (((i + k) * W : ℕ) : ℝ) ≤ 2 ^ 42 := by exact_mod_cast hok
  have b0 : (0 : ℝ) ≤ ((i * W : ℕ) : ℝ) := Nat.cast_nonneg _
  generalize ((i * W : ℕ) : ℝ) = X at *
  generalize (((i + k) * W : ℕ) : ℝ) = Y at *
  have hxs : |x - X / (4 * sr : ℕ)| * sr ≤ 1 / 2 ^ 47 * (X / 4) := by
    rw [← e1, ← mul_assoc]; exact mul_le_mul_of_nonneg_right hxe hs0.le
  have hys : |y - Y / (4 * sr : ℕ)| * sr ≤ 1 / 2 ^ 47 * (Y / 4) := by
    rw [← e2, ← mul_assoc]; exact mul_le_mul_of_nonneg_right hye hs0.le
  have ex : |x - X / (4 * sr : ℕ)| * sr = |x * sr - X / 4| := by
    rw [← e1, ← sub_mul, abs_mul, abs_of_pos hs0]
  have ey : |y - Y / (4 * sr : ℕ)| * sr = |y * sr - Y / 4| := by
    rw [← e2, ← sub_mul, abs_mul, abs_of_pos hs0]
  rw [ex] at hxs
  rw [ey] at hys
  have x1 := (abs_le.mp hxs).1
  have x2 := (abs_le.mp hxs).2
  have y1 := (abs_le.mp hys).1
  have y2 := (abs_le.mp hys).2
  norm_num at b2 x1 x2 y1 y2
  have hd : 1 / 8 ≤ (y - x) * sr := by rw [sub_mul]; linarith
  have hlt : x < y := by
    by_contra hc
    have : (y - x) * sr ≤ 0 := mul_nonpos_of_nonpos_of_nonneg (by linarith) hs0.le
    linarith
  refine ⟨hasFrames_of hf hmf hf0 hx hy hlt (mid_between h0 hsr hd (by rw [sub_mul]; norm_num; linarith)), x, hx, ?_⟩
  have : |x| * sr = |x * sr| := by rw [abs_mul, abs_of_pos hs0]
  rw [this, abs_le]
  norm_num
  constructor <;> linarith

/-- The interval of a realigned result counts at least one frame. -/
theorem realigned_frames [Libm F] {W sr len : ℕ} (h4 : 4 ≤ W) (hW : W ≤ 2 ^ 40) (h0 : 0 < sr) (hsr : sr < 4294967296) (hl : W ≤ len)
    (hl2 : len ≤ 2 ^ 31) {fd s : F} (hfd : fd = Flt.ofNat W * 0.25 / Flt.ofNat sr) {x : ℝ} (hs : Is s x) (hx : |x| * sr ≤ 2 ^ 44) :
    1 ≤ Flt.toUsize (Flt.ceil ((s + Flt.ofNat len / Flt.ofNat sr - s) / fd)) := by
  obtain ⟨f, hf, hmf, hf0⟩ := frame_duration (F := F) h4 hW h0 hsr hfd
  have hs0 : (0 : ℝ) < sr := by exact_mod_cast h0
  have hs1 : (1 : ℝ) ≤ sr := by exact_mod_cast h0
  have hsr' : (sr : ℝ) ≤ 4294967296 := by exact_mod_cast hsr.le
  obtain ⟨_, d, hd, hde⟩ := Rel.div_exact (Rel.exact (val_nat (F := F) (n := len) (by omega)) (Nat.cast_nonneg len))
    (val_nat (F := F) (n := sr) (by omega)) (mid_nat (by omega)) (mid_nat (by omega)) hs0 le_rfl (by norm_num)
  have hds : |d * sr - len| ≤ 1 / 2 ^ 50 * len := by
    have e : (len : ℝ) / sr * sr = len := by field_simp
    have := mul_le_mul_of_nonneg_right hde hs0.le
    have e2 : |d - len / sr| * sr = |d * sr - len| := by
      rw [← abs_of_pos hs0, ← abs_mul, sub_mul, abs_of_pos hs0, e]
    rw [e2, mul_assoc, e, zero_add] at this
    exact this
  have hlen1 : (4 : ℝ) ≤ len := by exact_mod_cast h4.trans hl
  have hlen2 : (len : ℝ) ≤ 2147483648 := by exact_mod_cast hl2
  have d1 := (abs_le.mp hds).1
  have d2 := (abs_le.mp hds).2
  norm_num at d1 d2
  have hxs : |x * sr| ≤ 2 ^ 44 := by rwa [abs_mul, abs_of_pos hs0]
  have x1 := (abs_le.mp hxs).1
  have x2 := (abs_le.mp hxs).2
  norm_num at x1 x2
  have hsum := Is.add hs hd
  have hb : |x + d| * sr ≤ 2 ^ 45 := by
    have : |x + d| * sr = |x * sr + d * sr| := by rw [← add_mul, abs_mul, abs_of_pos hs0]
    rw [this, abs_le]
    norm_num
    constructor <;> linarith
  have hb2 : |x + d| ≤ 2 ^ 45 := le_trans (le_mul_of_one_le_right (abs_nonneg _) hs1) hb
  obtain ⟨y, hy, hye⟩ := rnd_acc (F := F) (x + d) (hb2.trans (two_pow_mono (by norm_num)))
  have hyI : Is (s + Flt.ofNat len / Flt.ofNat sr) y := hsum.trans hy
  have ht : (1 : ℝ) / 2 ^ 1000 ≤ 1 / 2 ^ 40 := tiny_le_pow (by norm_num)
  have hys : |y * sr - (x * sr + d * sr)| ≤ 1 / 2 := by
    have e : |y * sr - (x * sr + d * sr)| = |y - (x + d)| * sr := by
      rw [← add_mul, ← sub_mul, abs_mul, abs_of_pos hs0]
    rw [e]
    have h1 := mul_le_mul_of_nonneg_right hye hs0.le
    generalize (1 : ℝ) / 2 ^ 1000 = tiny at *
    refine h1.trans ?_
    rw [add_mul]
    have h3 : tiny * sr ≤ 1 / 2 ^ 40 * sr := mul_le_mul_of_nonneg_right ht hs0.le
    have h4 : |x + d| / 2 ^ 52 * sr = |x + d| * sr / 2 ^ 52 := by ring
    norm_num at h3 hb h4 ⊢
    linarith
  clear ht hye
  have y1 := (abs_le.mp hys).1
  have y2 := (abs_le.mp hys).2
  have hdd : 1 / 8 ≤ (y - x) * sr := by rw [sub_mul]; linarith
  have hlt : x < y := by
    by_contra hc
    have : (y - x) * sr ≤ 0 := mul_nonpos_of_nonpos_of_nonneg (by linarith) hs0.le
    linarith
  exact hasFrames_of hf hmf hf0 hs hyI hlt (mid_between h0 hsr hdd (by rw [sub_mul]; norm_num; linarith))

variable [RustFft F] [BoundedFft F] [Libm F]

/-- Fine alignment of one coarse result of ordinary signals succeeds when both patches start inside their signals. -/
theorem finelyAlignPatch_total' (p : Profile) {nb : Nat} (hnb : 0 < nb) (hnb2 : nb ≤ 2 ^ 32) (fb : FilterBank F) {w : AnalysisWindow F}
    (h2 : 0 < w.hop) (hhop : w.hop ≤ w.size / 4) (h4 : 4 ≤ w.size) (hw17 : w.size ≤ 2 ^ 17) {ref deg : AudioSignal F}
    (hsr : ref.sampleRate = deg.sampleRate) (h0 : 0 < ref.sampleRate) (hu32 : ref.sampleRate < 4294967296) {n : ℕ} (hpr : ∀ a ∈ ref.data, Pw n a)
    (hpd : ∀ a ∈ deg.data, Pw n a) (hn : n ≤ 100) (hbank : TameBank nb ref.sampleRate fb.minFreq)
    (hfreq : FreqsOk nb ref.sampleRate fb.minFreq) (hrl : ref.data.length ≤ 2 ^ 40) (hdl : deg.data.length ≤ 2 ^ 40) {i o k : Nat}
    (hk20 : 20 ≤ k) (hk30 : k ≤ 30) (hi : i * w.size / 4 ≤ ref.data.length) (ho : o * w.size / 4 ≤ deg.data.length)
    (hbi : (i + k) * w.size ≤ 2 ^ 42) (hbo : (o + k) * w.size ≤ 2 ^ 42) {r : PatchSim F} {fd : F}
    (hfd : fd = Flt.ofNat w.size * 0.25 / Flt.ofNat ref.sampleRate)
    (e1 : r.refStart = Flt.ofNat i * fd) (e2 : r.refEnd = Flt.ofNat i * fd + fd * Flt.ofNat k)
    (e3 : r.degStart = Flt.ofNat o * fd) (e4 : r.degEnd = Flt.ofNat o * fd + fd * Flt.ofNat k)
    (hmeans : ScoredPatch r) :
    ∃ fb' r', finelyAlignPatch p nb ref deg w fb r = .ok (fb', r') ∧ HasFrames fd r' ∧ ScoredPatch r' ∧
      fb'.minFreq = fb.minFreq := by
  have hi42 : i ≤ 2 ^ 42 := by nlinarith
  have ho42 : o ≤ 2 ^ 42 := by nlinarith
  have hkW : 20 * w.size ≤ k * w.size := Nat.mul_le_mul_right _ hk20
  have hkW2 : k * w.size ≤ 30 * w.size := Nat.mul_le_mul_right _ hk30
  obtain ⟨hfr, x, hx, hxs⟩ := coarse_frames (F := F) (i := i) h4 (hw17.trans (by norm_num)) h0 hu32 (by omega) hbi hi42 (by omega) hfd
  obtain ⟨ra, a1, a2, a3, a4, a5⟩ := slice_patch' (s := ref) (o := i) (hw17.trans (by norm_num)) h0 hu32 hbi hi42 (by omega)
    (by omega) hi hrl hfd
  obtain ⟨da, b1, b2, b3, b4, b5⟩ := slice_patch' (s := deg) (o := o) (hw17.trans (by norm_num)) (hsr ▸ h0) (hsr ▸ hu32) hbo ho42
    (by omega) (by omega) ho hdl (hsr ▸ hfd)
  have hr0 : HasFrames fd r := by
    unfold HasFrames
    rw [e1, e2]; exact hfr
  obtain ⟨raa, daa, lag, f1, f2, s1, s2, rm, dm, q, c1, c2, c3, c4, c5, c6, c7, c8, c9, c10, z, hz, hzs⟩ :=
    compareSlices_total' p hnb hnb2 fb h2 (by omega) hw17 (ra := ra) (da := da) (by omega) (by omega) (by omega) (n := n)
      (fun a ha => by rcases a5 a ha with h | rfl; exacts [hpr a h, Pw.zero])
      (fun a ha => by rcases b5 a ha with h | rfl; exacts [hpd a h, Pw.zero]) hn (by rw [a2]; exact hbank) (by rw [a2]; exact hfreq)
      (by omega) (by omega) (by omega)
  unfold finelyAlignPatch
  by_cases hun : (Flt.eq r.degStart r.degEnd && Flt.eq r.degStart 0.0) = true
  · rw [if_pos hun]
    exact ⟨fb, r, rfl, hr0, hmeans, rfl⟩
  rw [if_neg hun, e1, e2, e3, e4, a1]
  simp only [ok_bind]
  rw [b1]
  simp only [ok_bind]
  rw [c1]
  simp only [ok_bind]
  rw [c2]
  simp only [ok_bind]
  rw [c3]
  simp only [ok_bind]
  rw [c4]
  simp only [ok_bind]
  rw [c5]
  simp only [ok_bind]
  by_cases hlt : Flt.lt q.similarity r.similarity = true
  · rw [if_pos hlt]
    exact ⟨f2, r, rfl, hr0, hmeans, c9⟩
  rw [if_neg hlt]
  refine ⟨_, _, rfl, ?_, c10, c9⟩
  have hs0 : (0 : ℝ) < ref.sampleRate := by exact_mod_cast h0
  have hs1 : (1 : ℝ) ≤ ref.sampleRate := by exact_mod_cast h0
  have hs2 : (ref.sampleRate : ℝ) ≤ 4294967296 := by exact_mod_cast hu32.le
  rw [a2] at hzs
  have hmain : ∀ s : F, (∃ y, Is s y ∧ |y| * ref.sampleRate ≤ 2 ^ 44) →
      1 ≤ Flt.toUsize (Flt.ceil ((s + raa.duration - s) / fd)) := by
    rintro s ⟨y, hy, hys⟩
    unfold AudioSignal.duration
    rw [c6, a2]
    exact realigned_frames h4 (hw17.trans (by norm_num)) h0 hu32 c7 c8 hfd hy hys
  unfold HasFrames
  dsimp only
  by_cases hpos : Flt.lt 0.0 lag = true
  · rw [if_pos hpos]
    apply hmain
    have hadd := Is.add hx hz
    have hb : |x + z| * ref.sampleRate ≤ 2 ^ 42 := by
      have := mul_le_mul_of_nonneg_right (abs_add_le x z) hs0.le
      rw [add_mul] at this
      norm_num at hxs hzs ⊢
      linarith
    have hb2 : |x + z| ≤ 2 ^ 42 := le_trans (le_mul_of_one_le_right (abs_nonneg _) hs1) hb
    obtain ⟨y, hy, hye⟩ := rnd_acc (F := F) (x + z) (hb2.trans (two_pow_mono (by norm_num)))
    have ht : (1 : ℝ) / 2 ^ 1000 ≤ 1 / 2 ^ 40 := tiny_le_pow (by norm_num)
    refine ⟨y, hadd.trans hy, ?_⟩
    generalize (1 : ℝ) / 2 ^ 1000 = tiny at *
    have h5 : |y| ≤ |y - (x + z)| + |x + z| := by simpa using abs_add_le (y - (x + z)) (x + z)
    have h6 : |y| ≤ 2 * |x + z| + 1 / 2 ^ 40 := by
      have h7 : |x + z| / 2 ^ 52 ≤ |x + z| := div_le_self (abs_nonneg _) (one_le_pow₀ (by norm_num))
      linarith
    have h8 := mul_le_mul_of_nonneg_right h6 hs0.le
    rw [add_mul, mul_assoc] at h8
    norm_num at h8 hb ⊢
    linarith
  · rw [if_neg hpos]
    exact hmain _ ⟨x, hx, hxs.trans (by norm_num)⟩

/-- Fine alignment of all coarse results. -/
theorem finelyAlign_total' (p : Profile) {nb : Nat} {w : AnalysisWindow F} {ref deg : AudioSignal F} {mf : F} {P : PatchSim F → Prop} :
    ∀ (rs : List (PatchSim F)) (fb : FilterBank F), fb.minFreq = mf → (∀ r ∈ rs, ∀ fb : FilterBank F, fb.minFreq = mf →
      ∃ fb' r', finelyAlignPatch p nb ref deg w fb r = .ok (fb', r') ∧ P r' ∧ fb'.minFreq = fb.minFreq) →
    ∃ fb' rs', finelyAlign p nb ref deg w fb rs = .ok (fb', rs') ∧ ∀ r ∈ rs', P r
  | [], fb, _, _ => ⟨fb, [], rfl, by simp⟩
  | r :: rs, fb, hmf, h => by
    obtain ⟨f1, r1, h1, h2, h3⟩ := h r (by simp) fb hmf
    obtain ⟨f2, rs2, h4, h5⟩ := finelyAlign_total' p rs f1 (h3.trans hmf) (fun q hq => h q (by simp [hq]))
    refine ⟨f2, r1 :: rs2, ?_, ?_⟩
    · unfold finelyAlign
      rw [h1]
      simp only [ok_bind]
      rw [h4]
      rfl
    · intro q hq
      rcases List.mem_cons.mp hq with rfl | hq
      · exact h2
      · exact h5 q hq

end Visqol
