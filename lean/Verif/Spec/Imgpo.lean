import Mathlib.Algebra.BigOperators.Fin
import Verif.Model.Imgpo
import Verif.Basic.Xt

/-! Specification of the cells of IMGPO, over exact real numbers. -/

namespace Limbo

open Finset

/-- Coordinate `j` of a point. -/
noncomputable def crd (p : List ℝ) (j : Nat) : ℝ := p.getD j 0

/-- A point of `[0,1]^d`. -/
def UnitPoint (d : Nat) (p : List ℝ) : Prop := p.length = d ∧ ∀ j < d, 0 ≤ crd p j ∧ crd p j ≤ 1

/-- A cell: lower corner, upper corner, stored point. -/
structure Cell where
  a : List ℝ
  b : List ℝ
  c : List ℝ

/-- The point `p` is in the (closed) cell. -/
def Cell.Mem (d : Nat) (C : Cell) (p : List ℝ) : Prop := ∀ j < d, crd C.a j ≤ crd p j ∧ crd p j ≤ crd C.b j

/-- The two cells have no interior point in common: some coordinate separates them. -/
def Cell.Apart (d : Nat) (C C' : Cell) : Prop := ∃ j < d, crd C.b j ≤ crd C'.a j ∨ crd C'.b j ≤ crd C.a j

/-- What a cell of depth `h` must be: inside `[0,1]^d`, its sides `3^{-n 0}, 3^{-n 1}, ...` where the `n j` add up to `h` and differ by at most one,
its point the centre. -/
structure Cell.Good (d h : Nat) (C : Cell) : Prop where
  la : C.a.length = d
  lb : C.b.length = d
  lc : C.c.length = d
  inside : ∀ j < d, 0 ≤ crd C.a j ∧ crd C.b j ≤ 1
  sides : ∃ n : Nat → Nat, (∀ j < d, crd C.b j - crd C.a j = (1 / 3) ^ n j) ∧ ∑ j ∈ range d, n j = h ∧ ∀ j < d, ∀ k < d, n j ≤ n k + 1
  centre : ∀ j < d, crd C.c j = (crd C.a j + crd C.b j) / 2

/-- `C` is cell number `i` of level `h` in the tree. -/
def CellAt (tree : List (Lev XR)) (h i : Nat) (C : Cell) : Prop :=
  ∃ L, tree[h]? = some L ∧ L.xmin[i]? = some (C.a.map XR.fin) ∧ L.xmax[i]? = some (C.b.map XR.fin) ∧ L.x[i]? = some (C.c.map XR.fin)

/-- Cell number `i` of level `h` exists and is marked as a leaf. -/
def LeafAt (tree : List (Lev XR)) (h i : Nat) : Prop := ∃ L, tree[h]? = some L ∧ L.leaf[i]? = some true

/-- The leaves tile `[0,1]^d`: they cover it, and no two of them overlap. -/
def Tiles (d : Nat) (tree : List (Lev XR)) : Prop :=
  (∀ p, UnitPoint d p → ∃ h i C, LeafAt tree h i ∧ CellAt tree h i C ∧ C.Mem d p) ∧
  ∀ h i C h' i' C', LeafAt tree h i → CellAt tree h i C → LeafAt tree h' i' → CellAt tree h' i' C' → (h, i) ≠ (h', i') → C.Apart d C'

/-- All arrays of a level have the same size, and every entry is a cell of that depth. -/
structure LevOk (d h : Nat) (L : Lev XR) : Prop where
  lxmin : L.xmin.length = L.x.length
  lxmax : L.xmax.length = L.x.length
  lf : L.f.length = L.x.length
  lleaf : L.leaf.length = L.x.length
  lsamp : L.samp.length = L.x.length
  cells : ∀ i < L.x.length, ∃ C : Cell, L.xmin[i]? = some (C.a.map XR.fin) ∧ L.xmax[i]? = some (C.b.map XR.fin) ∧
    L.x[i]? = some (C.c.map XR.fin) ∧ C.Good d h

end Limbo
