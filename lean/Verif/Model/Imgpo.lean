import Verif.Model.Bo

/-! Model of `experimental/bayes_opt/imgpo.hpp`: optimization with a tree of cells (IMGPO).

As in `Verif/Model/Bo.lean` every template parameter is a parameter of the model.  In addition:

* `XI` only takes half-integer values (1, then `- 0.5` not below 1, or `+ 4`); it is kept as the natural number `2 * XI`, exact also in `double`
  for any feasible number of iterations.
* `rho_avg`, `rho_bar`, `rho_t`, `split_n`, `xi_max` and `t` are written but never read by the algorithm; they are left out.
* the acquisition function is called in the code with two arguments, which no acquisition function of the library accepts any more (they
  also want a flag for the gradient); it is modelled as a function of the model, the number `M`, the aggregator and the point.
* local variables of `optimize` are components of the state; `optimize` sets all of them at its beginning. -/

namespace Limbo

/-- `TreeNode`: all cells of one level, as parallel arrays (`imgpo.hpp:72-75`). -/
structure Lev (α : Type) where
  xmax : List (List α)
  xmin : List (List α)
  x : List (List α)
  f : List (List α)
  leaf : List Bool
  samp : List Bool
  deriving DecidableEq

/-- State of an `IMGPO` object (`imgpo.hpp:410-411` on top of `bo_base.hpp:285-292`) and the local variables of `optimize`
(`imgpo.hpp:113-132`, `187-188`, `253`). -/
structure ImState (α M : Type) where
  base : BoState α M
  tree : List (Lev α)
  depth : Nat
  cnt : Nat
  xi2 : Nat
  lb : α
  lbOld : α
  bhi : α
  bhi2 : α
  imax : List (Option Nat)
  bmax : List α
  zmax : α
  cnt2 : Nat

variable {α M : Type}

/-- Template parameters of `IMGPO`. -/
structure ImParams (α M : Type) where
  bo : BoParams α M
  /-- the acquisition function built on a model with number `M` -/
  acq : M → Nat → (List α → α) → List α → α
  /-- `mu.array() + var` with `(mu, sigma) = model.query(x)` and `var = (sqrt(2 log(pi^2 M^2 / 0.6)) + 0.2) * sqrt(sigma)`
  (`imgpo.hpp:280-285`, `319-324`) -/
  est : M → Nat → List α → List α
  /-- `Params::bayes_opt_imgpo::hp_opt()` -/
  hpOpt : Bool

/-- Run code of `BoBase` inside the `IMGPO` object. -/
def imBase (st : ImState α M) (r : Res (BoState α M)) : Res (ImState α M) :=
  r.bind (fun b => .ok { st with base := b }) (fun b => { st with base := b })

/-- Change level `h` of the tree; a level that does not exist is undefined behaviour. -/
def imLev (st : ImState α M) (h : Nat) (g : Lev α → Lev α) : Res (ImState α M) :=
  if h < st.tree.length then .ok { st with tree := st.tree.modify h g } else .ub

/-- `_current_iteration++; _total_iterations++` (`imgpo.hpp:123-124`, `163-164`, `297-298`, `336-337`). -/
def imTick (st : ImState α M) : ImState α M :=
  { st with base := { st.base with currentIteration := st.base.currentIteration + 1, totalIterations := st.base.totalIterations + 1 } }

/-- Do something for several levels, in order. -/
def imEach (body : Nat → ImState α M → Res (ImState α M)) : List Nat → ImState α M → Res (ImState α M)
  | [], st => .ok st
  | h :: hs, st => (body h st).andThen (imEach body hs)

section
variable [Scalar α]

/-- `FirstElem` (`bo_base.hpp`), the default aggregator; reading the first element of an empty vector is undefined and excluded where it is
used on a new observation. -/
def imFirst (v : List α) : α := v.headD (lit 0)

/-- The `for` loop over the cells of a level (`imgpo.hpp:139-148`): `b_hi_max`, and the index and value to store if some leaf is better.
`none` = the arrays have different sizes and one is read past its end. -/
def imScan (afun : List α → α) (L : Lev α) : List Nat → α → Option (Nat × α) → Option (α × Option (Nat × α))
  | [], b, r => some (b, r)
  | i :: is, b, r =>
    match L.leaf[i]? with
    | none => none
    | some false => imScan afun L is b r
    | some true =>
      match L.f[i]? with
      | none => none
      | some v => if lt b (afun v) then imScan afun L is (afun v) (some (i, afun v)) else imScan afun L is b r

/-- The assignments made by that loop. -/
def imScanned (h : Nat) (r : α × Option (Nat × α)) (st : ImState α M) : ImState α M :=
  match r.2 with
  | none => { st with bhi := r.1 }
  | some (i, b) => { st with bhi := r.1, imax := st.imax.set h (some i), bmax := st.bmax.set h b }

/-- Steps (i)-(ii) for level `h`: the `while (true)` loop (`imgpo.hpp:138-167`).  Every pass but the last sets one entry of `samp` from
false to true, so the fuel `size + 1` used below is enough. -/
def imVisit (f : StateFun α M) (afun : List α → α) (h : Nat) : Nat → ImState α M → Res (ImState α M)
  | 0, _ => .diverge
  | n + 1, st =>
    match st.tree[h]? with
    | none => .ub
    | some L =>
      match imScan afun L (List.range L.x.length) st.bhi none with
      | none => .ub
      | some r =>
        let st := imScanned h r st
        match st.imax[h]? with
        | none => .ub
        | some none => .ok st
        | some (some i) =>
          match L.samp[i]?, L.x[i]? with
          | some true, _ => .ok st
          | some false, some x =>
            let c := f.call st.base.trace x
            let st := { st with base := st.base.push (.call x c) }
            match c with
            | .threw => .throw .other st
            | .ret v =>
              (imLev st h fun L => { L with samp := L.samp.set i true }).andThen fun st =>
              (imBase st (addNewSample x v st.base)).andThen fun st => imVisit f afun h n (imTick st)
          | _, _ => .ub

/-- Steps (i)-(ii) for level `h`. -/
def imStep12 (f : StateFun α M) (afun : List α → α) (h : Nat) (st : ImState α M) : Res (ImState α M) :=
  imVisit f afun h (((st.tree[h]?).elim 0 fun L => L.x.length) + 1) st

/-- `to_split.maxCoeff(&splitd, &tmp)`: the first longest side, and the borders of the cell along it (`imgpo.hpp:200-202`, `264-266`).
`none` = empty vector or different sizes. -/
def imSide (xmin xmax : List α) : Option (Nat × α × α) :=
  let s := maxElement (List.zipWith (fun a b => a - b) xmax xmin)
  match xmin[s]?, xmax[s]? with
  | some mn, some mx => some (s, mn, mx)
  | _, _ => none

/-- `(5 * x_min + x_max) / 6.0`. -/
def imG (mn mx : α) : α := (lit 5 * mn + mx) / lit 6
/-- `(x_min + 5 * x_max) / 6.0`. -/
def imD (mn mx : α) : α := (mn + lit 5 * mx) / lit 6
/-- `(2 * x_min + x_max) / 3.0`. -/
def imL (mn mx : α) : α := (lit 2 * mn + mx) / lit 3
/-- `(x_min + 2 * x_max) / 3.0`. -/
def imR (mn mx : α) : α := (mn + lit 2 * mx) / lit 3

/-- `_model.compute(_samples, _observations)`. -/
def imCompute (P : ImParams α M) (st : ImState α M) : Res (ImState α M) :=
  imBase st (withModel st.base (P.bo.ops.compute st.base.samples st.base.observations st.base.model))

/-- The loop over `h2` in step (iii) (`imgpo.hpp:193-241`).  `tmp_tree[h]` has exactly one point, so the inner loop runs for `ii = 0` only, always with
the point `xx` of the cell at level `h`; entry 0 of the next level is the left cell.  `b` is `b_max[h + xi]`. -/
def imChain (P : ImParams α M) (afun : List α → α) (xx : List α) (b : α) : Nat → List α → List α → ImState α M → Res (ImState α M)
  | 0, _, _, st => .ok st
  | n + 1, xmin, xmax, st =>
    match imSide xmin xmax with
    | none => .ub
    | some (s, mn, mx) =>
      if s < xx.length then
        (imCompute P st).andThen fun st =>
        let st := { st with zmax := stdMax st.zmax (P.acq st.base.model st.cnt2 afun (xx.set s (imG mn mx))), cnt2 := st.cnt2 + 1 }
        (imCompute P st).andThen fun st =>
        let st := { st with zmax := stdMax st.zmax (P.acq st.base.model st.cnt2 afun (xx.set s (imD mn mx))), cnt2 := st.cnt2 + 1 }
        if le b st.zmax then .ok st
        else imChain P afun xx b n xmin (xmax.set s (imL mn mx)) st
      else .ub

/-- Step (iii) for level `h` (`imgpo.hpp:170-249`). -/
def imStep3 (P : ImParams α M) (afun : List α → α) (h : Nat) (st : ImState α M) : Res (ImState α M) :=
  match st.imax[h]? with
  | none => .ub
  | some none => .ok st
  | some (some i) =>
    match (List.range' (h + 1) (min st.depth (h + min ((st.xi2 + 1) / 2) 4) - h)).find? fun h2 => (st.imax.getD h2 none).isSome with
    | none => .ok st
    | some h2 =>
      match st.tree[h]?, st.bmax[h2]? with
      | some L, some b =>
        match L.xmax[i]?, L.xmin[i]?, L.x[i]? with
        | some xmax, some xmin, some xx =>
          let st := { st with zmax := negInf, cnt2 := st.cnt }
          (imChain P afun xx b (h2 - h) xmin xmax st).andThen fun st =>
          if lt st.zmax b then .ok { st with cnt := st.cnt2, imax := st.imax.set h none } else .ok st
        | _, _, _ => .ub
      | _, _ => .ub

/-- The left or the right cell in steps (iv)-(v) (`imgpo.hpp:271-308` and `310-347`): point `x`, borders `xmin`, `xmax`, added to level `h1`. -/
def imChild (P : ImParams α M) (f : StateFun α M) (afun : List α → α) (h1 : Nat) (x xmin xmax : List α) (st : ImState α M) : Res (ImState α M) :=
  (imLev st h1 fun L => { L with x := L.x ++ [x] }).andThen fun st =>
  (imCompute P st).andThen fun st =>
  if lt (P.acq st.base.model st.cnt afun x - st.lb) (lit (1 / 1000000)) then
    let v := P.est st.base.model st.cnt x
    let st := { st with cnt := st.cnt + 1 }
    imLev st h1 fun L => { L with samp := L.samp ++ [false], f := L.f ++ [v], xmin := L.xmin ++ [xmin], xmax := L.xmax ++ [xmax], leaf := L.leaf ++ [true] }
  else
    let c := f.call st.base.trace x
    let st := { st with base := st.base.push (.call x c) }
    match c with
    | .threw => .throw .other st
    | .ret v =>
      (imLev st h1 fun L => { L with samp := L.samp ++ [true] }).andThen fun st =>
      (imBase st (addNewSample x v st.base)).andThen fun st =>
      if v.isEmpty then .ub
      else
        let st := imTick { st with bhi2 := stdMax st.bhi2 (imFirst v) }
        imLev st h1 fun L => { L with f := L.f ++ [v], xmin := L.xmin ++ [xmin], xmax := L.xmax ++ [xmax], leaf := L.leaf ++ [true] }

/-- Expansion of cell `i` of level `h` (`imgpo.hpp:258-364`). -/
def imExpand (P : ImParams α M) (f : StateFun α M) (afun : List α → α) (h i : Nat) (st : ImState α M) : Res (ImState α M) :=
  let st := { st with depth := max st.depth (h + 1) }
  match st.tree[h]? with
  | none => .ub
  | some L =>
    (imLev st h fun L => { L with leaf := L.leaf.set i false }).andThen fun st =>
    match L.x[i]?, L.xmin[i]?, L.xmax[i]?, L.f[i]? with
    | some x, some xmin, some xmax, some v =>
      match imSide xmin xmax with
      | none => .ub
      | some (s, mn, mx) =>
        if s < x.length then
          (imChild P f afun (h + 1) (x.set s (imG mn mx)) xmin (xmax.set s (imL mn mx)) st).andThen fun st =>
          (imChild P f afun (h + 1) (x.set s (imD mn mx)) (xmin.set s (imR mn mx)) xmax st).andThen fun st =>
          (imLev st (h + 1) fun L => { L with
            x := L.x ++ [x]
            f := L.f ++ [v]
            samp := L.samp ++ [true]
            xmin := L.xmin ++ [xmin.set s (imL mn mx)]
            xmax := L.xmax ++ [xmax.set s (imR mn mx)]
            leaf := L.leaf ++ [true] }).andThen fun st =>
          match bestObservation imFirst st.base with
          | none => .ub
          | some o => .ok { st with lb := afun o }
        else .ub
    | _, _, _, _ => .ub

/-- Steps (iv)-(v) for level `h` (`imgpo.hpp:254-365`). -/
def imStep45 (P : ImParams α M) (f : StateFun α M) (afun : List α → α) (h : Nat) (st : ImState α M) : Res (ImState α M) :=
  match st.imax[h]?, st.bmax[h]? with
  | some none, some _ => .ok st
  | some (some i), some b => if lt st.bhi2 b then imExpand P f afun h i st else .ok st
  | _, _ => .ub

/-- One pass of the main loop (`imgpo.hpp:127-377`).  In the last loop `depth_T` may grow, but `h_max` keeps its old value. -/
def imPass (P : ImParams α M) (f : StateFun α M) (afun : List α → α) (st : ImState α M) : Res (ImState α M) :=
  let hs := List.range (st.depth + 1)
  let st := { st with imax := List.replicate (st.depth + 1) none, bmax := List.replicate (st.depth + 1) negInf, bhi := negInf }
  (imEach (imStep12 f afun) hs st).andThen fun st =>
  (imEach (imStep3 P afun) hs st).andThen fun st =>
  (imEach (imStep45 P f afun) hs { st with bhi2 := negInf }).andThen fun st =>
  let d := st.lbOld - st.lb
  let a := if lt d (lit 0) then -d else d
  .ok { st with xi2 := if lt a (lit (1 / 1000000)) then max (st.xi2 - 1) 2 else st.xi2 + 8, lbOld := st.lb }

/-- The main loop (`imgpo.hpp:126-377`). -/
def imLoop (P : ImParams α M) (f : StateFun α M) (afun : List α → α) : Nat → ImState α M → Res (ImState α M)
  | 0, _ => .diverge
  | fuel + 1, st =>
    if st.base.samples.length = 0 then (imPass P f afun st).andThen (imLoop P f afun fuel)
    else
      match boStop P.bo afun st.base with
      | none => .ub
      | some (true, b) => .ok { st with base := b }
      | some (false, b) => (imPass P f afun { st with base := b }).andThen (imLoop P f afun fuel)

/-- The root cell (`imgpo.hpp:104-124`): it is added to level 0 even if there is one already, and `x[0]`, `f[0]` are the entries of the first
one. -/
def imRoot (f : StateFun α M) (afun : List α → α) (st : ImState α M) : Res (ImState α M) :=
  (imLev st 0 fun L => { L with
    xmax := L.xmax ++ [List.replicate f.dimIn (lit 1)]
    xmin := L.xmin ++ [List.replicate f.dimIn (lit 0)]
    x := L.x ++ [List.replicate f.dimIn (lit 1 * lit (1 / 2))] }).andThen fun st =>
  match (st.tree[0]?).bind fun L => L.x[0]? with
  | none => .ub
  | some x0 =>
    let c := f.call st.base.trace x0
    let st := { st with base := st.base.push (.call x0 c) }
    match c with
    | .threw => .throw .other st
    | .ret v =>
      (imLev st 0 fun L => { L with f := L.f ++ [v], leaf := L.leaf ++ [true], samp := L.samp ++ [true] }).andThen fun st =>
      match (st.tree[0]?).bind fun L => L.f[0]? with
      | none => .ub
      | some v0 =>
        (imBase st (addNewSample x0 v0 st.base)).andThen fun st =>
        .ok (imTick { st with lb := afun v0, lbOld := afun v0, depth := 0, cnt := 1, xi2 := 2 })

/-- `_init_tree(1000)` (`imgpo.hpp:404-408`). -/
def imNewTree : List (Lev α) := List.replicate 1000 ⟨[], [], [], [], [], []⟩

/-- `IMGPO::optimize` (`imgpo.hpp:92-381`). -/
def imOptimize (P : ImParams α M) (f : StateFun α M) (afun : List α → α) (reset : Bool) (fuel : Nat) (st : ImState α M) : Res (ImState α M) :=
  let st := { st with base := st.base.push (.start reset) }
  (imBase st (boInit P.bo f reset st.base)).andThen fun st =>
  let st := if st.base.totalIterations = 0 then { st with tree := imNewTree } else st
  let st := { st with base := { st.base with model := P.bo.ops.fresh f.dimIn f.dimOut } }
  (imRoot f afun st).andThen fun st =>
  (imLoop P f afun fuel st).andThen fun st =>
  if P.hpOpt then imBase st (withModel st.base (P.bo.ops.optHp st.base.model)) else .ok st

/-- A newly constructed `IMGPO` object (the local variables of `optimize` have arbitrary values here). -/
def newIm (it : Int) (m : M) : ImState α M :=
  { base := { samples := [], observations := [], currentIteration := it, totalIterations := 0, model := m, logs := [], trace := [] },
    tree := [], depth := 0, cnt := 0, xi2 := 0, lb := lit 0, lbOld := lit 0, bhi := lit 0, bhi2 := lit 0, imax := [], bmax := [], zmax := lit 0, cnt2 := 0 }

/-! ## Call histories -/

/-- A call made by the user. -/
inductive ImOp (α M : Type)
  | optimize (f : StateFun α M) (afun : List α → α) (reset : Bool) (fuel : Nat)
  | addNewSample (s v : List α)
  | evalAndAdd (f : StateFun α M) (x : List α)

/-- Effect of one call. -/
def imRunOp (P : ImParams α M) : ImOp α M → ImState α M → Res (ImState α M)
  | .optimize f afun reset fuel, st => imOptimize P f afun reset fuel st
  | .addNewSample s v, st => imBase st (Limbo.addNewSample s v (st.base.push (.given s v)))
  | .evalAndAdd f x, st => imBase st (Limbo.evalAndAdd f x st.base)

/-- Effect of a sequence of calls; exceptions are caught by the user, who goes on using the object.  `none` = undefined behaviour
or a call that does not return. -/
def imRunOps (P : ImParams α M) : List (ImOp α M) → ImState α M → Option (ImState α M)
  | [], st => some st
  | o :: os, st =>
    match imRunOp P o st with
    | .ok st => imRunOps P os st
    | .throw _ st => imRunOps P os st
    | _ => none

end

end Limbo
