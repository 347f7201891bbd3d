import Verif.Spec.Imgpo

/-!
Notions for C108: the values of the leaves of IMGPO's tree and the passes of its main loop.
-/

namespace Limbo

variable {M : Type}

/-- Cell number `i` of level `h` is a leaf, and its stored value aggregates to `b`. -/
def LeafWith (afun : List XR → XR) (tree : List (Lev XR)) (h i : Nat) (b : XR) : Prop :=
  ∃ L v, tree[h]? = some L ∧ L.leaf[i]? = some true ∧ L.f[i]? = some v ∧ afun v = b

/-- Leaf `(h, i)` has the highest value of all leaves. -/
def BestLeaf (afun : List XR → XR) (tree : List (Lev XR)) (h i : Nat) (b : XR) : Prop :=
  LeafWith afun tree h i b ∧ ∀ h' i' b', LeafWith afun tree h' i' b' → le b' b = true

/-- The number of leaves. -/
def leafCount (tree : List (Lev XR)) : Nat := (tree.map fun L => L.leaf.count true).sum

/-- What `optimize` does before its main loop: initialiser, new tree, new model, root cell (`imgpo.hpp:92-124`). -/
noncomputable def imBegin (P : ImParams XR M) (f : StateFun XR M) (afun : List XR → XR) (reset : Bool) (st : ImState XR M) : Res (ImState XR M) :=
  (imBase { st with base := st.base.push (.start reset) } (boInit P.bo f reset (st.base.push (.start reset)))).andThen fun st =>
  let st := if st.base.totalIterations = 0 then { st with tree := imNewTree } else st
  imRoot f afun { st with base := { st.base with model := P.bo.ops.fresh f.dimIn f.dimOut } }

/-- `s` is the state of a run of `optimize`, started in `st0`, when the stopping criteria are asked after `n` passes of the main loop. -/
inductive ImHead (P : ImParams XR M) (f : StateFun XR M) (afun : List XR → XR) (reset : Bool) (st0 : ImState XR M) : Nat → ImState XR M → Prop
  | start {s} : imBegin P f afun reset st0 = .ok s → ImHead P f afun reset st0 0 s
  | pass {n s b s'} : ImHead P f afun reset st0 n s → boStop P.bo afun s.base = some (false, b) → imPass P f afun { s with base := b } = .ok s' →
      ImHead P f afun reset st0 (n + 1) s'

end Limbo
