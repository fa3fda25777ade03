import Mathlib.Data.List.Forall2
import Verif.Lemmas.SvrCheck

/-! # The quadratic coefficients of the default model, evaluated by the kernel -/

namespace Visqol.Svr

theorem quad0 : quadRow col0 ≤ 1700000000000000000000000000000000000000000000000000000 := by decide +kernel

theorem quad1 : quadRow col1 ≤ 10600000000000000000000000000000000000000000000000000000 := by decide +kernel

theorem quad2 : quadRow col2 ≤ 40800000000000000000000000000000000000000000000000000000 := by decide +kernel

theorem quad3 : quadRow col3 ≤ 28900000000000000000000000000000000000000000000000000000 := by decide +kernel

theorem quad4 : quadRow col4 ≤ 21500000000000000000000000000000000000000000000000000000 := by decide +kernel

theorem quad5 : quadRow col5 ≤ 15200000000000000000000000000000000000000000000000000000 := by decide +kernel

theorem quad6 : quadRow col6 ≤ 000000000000000000000000000000000000000000000000000000 := by decide +kernel

theorem quad7 : quadRow col7 ≤ 000000000000000000000000000000000000000000000000000000 := by decide +kernel

theorem quad8 : quadRow col8 ≤ 000000000000000000000000000000000000000000000000000000 := by decide +kernel

theorem quad9 : quadRow col9 ≤ 000000000000000000000000000000000000000000000000000000 := by decide +kernel

theorem quad10 : quadRow col10 ≤ 000000000000000000000000000000000000000000000000000000 := by decide +kernel

theorem quad11 : quadRow col11 ≤ 000000000000000000000000000000000000000000000000000000 := by decide +kernel

theorem quad12 : quadRow col12 ≤ 000000000000000000000000000000000000000000000000000000 := by decide +kernel

theorem quad13 : quadRow col13 ≤ 000000000000000000000000000000000000000000000000000000 := by decide +kernel

theorem quad14 : quadRow col14 ≤ 000000000000000000000000000000000000000000000000000000 := by decide +kernel

theorem quad15 : quadRow col15 ≤ 000000000000000000000000000000000000000000000000000000 := by decide +kernel

theorem quad16 : quadRow col16 ≤ 000000000000000000000000000000000000000000000000000000 := by decide +kernel

theorem quad17 : quadRow col17 ≤ 000000000000000000000000000000000000000000000000000000 := by decide +kernel

theorem quad18 : quadRow col18 ≤ 22500000000000000000000000000000000000000000000000000000 := by decide +kernel

theorem quad19 : quadRow col19 ≤ 232200000000000000000000000000000000000000000000000000000 := by decide +kernel

theorem quad20 : quadRow col20 ≤ 244000000000000000000000000000000000000000000000000000000 := by decide +kernel

theorem quad21 : quadRow col21 ≤ 180100000000000000000000000000000000000000000000000000000 := by decide +kernel

theorem quad22 : quadRow col22 ≤ 162200000000000000000000000000000000000000000000000000000 := by decide +kernel

theorem quad23 : quadRow col23 ≤ 79700000000000000000000000000000000000000000000000000000 := by decide +kernel

theorem quad24 : quadRow col24 ≤ 40800000000000000000000000000000000000000000000000000000 := by decide +kernel

theorem quad25 : quadRow col25 ≤ 43800000000000000000000000000000000000000000000000000000 := by decide +kernel

theorem quad26 : quadRow col26 ≤ 43700000000000000000000000000000000000000000000000000000 := by decide +kernel

theorem quad27 : quadRow col27 ≤ 45100000000000000000000000000000000000000000000000000000 := by decide +kernel

theorem quad28 : quadRow col28 ≤ 50000000000000000000000000000000000000000000000000000000 := by decide +kernel

theorem quad29 : quadRow col29 ≤ 58700000000000000000000000000000000000000000000000000000 := by decide +kernel

theorem quad30 : quadRow col30 ≤ 57900000000000000000000000000000000000000000000000000000 := by decide +kernel

theorem quad31 : quadRow col31 ≤ 60400000000000000000000000000000000000000000000000000000 := by decide +kernel

theorem sum_le {α : Type} (f : α → Nat) {l : List α} {b : List Nat} (h : List.Forall₂ (fun c b => f c ≤ b) l b) :
    sumNat (l.map f) ≤ sumNat b := by
  induction h with
  | nil => exact Nat.le_refl _
  | cons h _ ih => exact Nat.add_le_add h ih

def quadBounds : List Nat := [
  1700000000000000000000000000000000000000000000000000000,
  10600000000000000000000000000000000000000000000000000000,
  40800000000000000000000000000000000000000000000000000000,
  28900000000000000000000000000000000000000000000000000000,
  21500000000000000000000000000000000000000000000000000000,
  15200000000000000000000000000000000000000000000000000000,
  000000000000000000000000000000000000000000000000000000,
  000000000000000000000000000000000000000000000000000000,
  000000000000000000000000000000000000000000000000000000,
  000000000000000000000000000000000000000000000000000000,
  000000000000000000000000000000000000000000000000000000,
  000000000000000000000000000000000000000000000000000000,
  000000000000000000000000000000000000000000000000000000,
  000000000000000000000000000000000000000000000000000000,
  000000000000000000000000000000000000000000000000000000,
  000000000000000000000000000000000000000000000000000000,
  000000000000000000000000000000000000000000000000000000,
  000000000000000000000000000000000000000000000000000000,
  22500000000000000000000000000000000000000000000000000000,
  232200000000000000000000000000000000000000000000000000000,
  244000000000000000000000000000000000000000000000000000000,
  180100000000000000000000000000000000000000000000000000000,
  162200000000000000000000000000000000000000000000000000000,
  79700000000000000000000000000000000000000000000000000000,
  40800000000000000000000000000000000000000000000000000000,
  43800000000000000000000000000000000000000000000000000000,
  43700000000000000000000000000000000000000000000000000000,
  45100000000000000000000000000000000000000000000000000000,
  50000000000000000000000000000000000000000000000000000000,
  58700000000000000000000000000000000000000000000000000000,
  57900000000000000000000000000000000000000000000000000000,
  60400000000000000000000000000000000000000000000000000000]

theorem quad_all : List.Forall₂ (fun c b => quadRow c ≤ b) cols quadBounds :=
  .cons quad0 (.cons quad1 (.cons quad2 (.cons quad3 (.cons quad4 (.cons quad5 (.cons quad6 (.cons quad7 (.cons quad8 (.cons quad9 (.cons quad10 (.cons quad11 (.cons quad12 (.cons quad13 (.cons quad14 (.cons quad15 (.cons quad16 (.cons quad17 (.cons quad18 (.cons quad19 (.cons quad20 (.cons quad21 (.cons quad22 (.cons quad23 (.cons quad24 (.cons quad25 (.cons quad26 (.cons quad27 (.cons quad28 (.cons quad29 (.cons quad30 (.cons quad31 .nil)))))))))))))))))))))))))))))))

theorem quad_le : sumNat (cols.map quadRow) ≤ 144 * 10 ^ 55 :=
  Nat.le_trans (sum_le quadRow quad_all) (by decide +kernel)

end Visqol.Svr
