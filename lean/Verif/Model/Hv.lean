import Verif.Model.Bo

/-!
The hypervolume computation of `hv/hypervol.c` (E. Zitzler), used by `experimental/stat/hyper_volume.hpp`.

`front` is the C array of pointers to points: the functions permute the pointers and never change a point.  Every access is checked, `none` is
undefined behaviour, `exit(1)` or a loop that does not end.  The loops carry fuel; that it never runs out is part of the theorems.
-/

namespace Limbo.Hv

variable {α : Type} [Scalar α]

/-- The loop of `Dominates` at objective `i`, `rest` objectives to go — hypervol.c:67-69. -/
def domLoop (p q : List α) : (rest i : Nat) → (better : Bool) → Option Bool
  | 0, _, better => some better
  | rest + 1, i, better => do
    let a ← p[i]?
    let b ← q[i]?
    if le b a then domLoop p q rest (i + 1) (if lt b a then true else better) else some false

/-- `Dominates(point1, point2, noObjectives)` — hypervol.c:59-71. -/
def dominates (p q : List α) (noObjectives : Nat) : Option Bool := domLoop p q noObjectives 0 false

/-- `Swap(front, i, j)` — hypervol.c:73-80. -/
def swap (front : List (List α)) (i j : Nat) : Option (List (List α)) := do
  let p ← front[i]?
  let q ← front[j]?
  some ((front.set i q).set j p)

/-- The inner loop of `FilterNondominatedSet` — hypervol.c:94-111.  Result: the array, `n`, and whether point `i` was removed (the loop is left
with `break` after `i--`). -/
def filterInner (m i : Nat) : (fuel : Nat) → List (List α) → (n j : Nat) → Option (List (List α) × Nat × Bool)
  | 0, _, _, _ => none
  | fuel + 1, front, n, j =>
    if j < n then do
      let p ← front[i]?
      let q ← front[j]?
      if ← dominates p q m then do
        let front ← swap front j (n - 1)
        filterInner m i fuel front (n - 1) j
      else if ← dominates q p m then do
        let front ← swap front i (n - 1)
        some (front, n - 1, true)
      else filterInner m i fuel front n (j + 1)
    else some (front, n, false)

/-- The outer loop — hypervol.c:93-113.  (`i--` followed by `i++` leaves `i` as it was.) -/
def filterOuter (m : Nat) : (fuel : Nat) → List (List α) → (n i : Nat) → Option (List (List α) × Nat)
  | 0, _, _, _ => none
  | fuel + 1, front, n, i =>
    if i < n then do
      let r ← filterInner m i (n + 1) front n (i + 1)
      filterOuter m fuel r.1 r.2.1 (if r.2.2 then i else i + 1)
    else some (front, n)

/-- `FilterNondominatedSet(front, noPoints, noObjectives)` — hypervol.c:82-115: the permuted array and the returned `n`. -/
def filterNondominated (front : List (List α)) (noPoints noObjectives : Nat) : Option (List (List α) × Nat) :=
  filterOuter noObjectives (noPoints + 1) front noPoints 0

/-- The loop of `SurfaceUnchangedTo` — hypervol.c:128-132. -/
def surfaceLoop (front : List (List α)) (k : Nat) : (rest i : Nat) → α → Option α
  | 0, _, acc => some acc
  | rest + 1, i, acc => do
    let p ← front[i]?
    let v ← p[k]?
    surfaceLoop front k rest (i + 1) (if lt v acc then v else acc)

/-- `SurfaceUnchangedTo(front, noPoints, objective)` — hypervol.c:117-133. -/
def surface (front : List (List α)) (noPoints k : Nat) : Option α :=
  if noPoints < 1 then none
  else do
    let p ← front[0]?
    let v ← p[k]?
    surfaceLoop front k (noPoints - 1) 1 v

/-- The loop of `ReduceNondominatedSet` — hypervol.c:145-150.  After a removal `i` is still increased: the point that was moved to `i` is not
looked at. -/
def reduceLoop (k : Nat) (thr : α) : (fuel : Nat) → List (List α) → (n i : Nat) → Option (List (List α) × Nat)
  | 0, _, _, _ => none
  | fuel + 1, front, n, i =>
    if i < n then do
      let p ← front[i]?
      let v ← p[k]?
      if le v thr then do
        let front ← swap front i (n - 1)
        reduceLoop k thr fuel front (n - 1) (i + 1)
      else reduceLoop k thr fuel front n (i + 1)
    else some (front, n)

/-- `ReduceNondominatedSet(front, noPoints, objective, threshold)` — hypervol.c:135-152. -/
def reduce (front : List (List α)) (noPoints k : Nat) (thr : α) : Option (List (List α) × Nat) :=
  reduceLoop k thr (noPoints + 1) front noPoints 0

/-- `tempVolume`: the volume in `d` dimensions of the first `nn` points — hypervol.c:168-176. -/
def lowerVolume (d : Nat) (sub : List (List α) → Nat → Option (α × List (List α))) (front : List (List α)) (nn : Nat) :
    Option (α × List (List α)) :=
  if d + 1 < 3 then
    if nn < 1 then none
    else do
      let p ← front[0]?
      let v ← p[0]?
      some (v, front)
  else sub front nn

/-- The loop of `CalculateHypervolume` for `d + 1` objectives — hypervol.c:163-181.  `sub` is the recursive call for `d` objectives. -/
def hvLoop (d : Nat) (sub : List (List α) → Nat → Option (α × List (List α))) :
    (fuel : Nat) → List (List α) → (n : Nat) → (volume distance : α) → Option (α × List (List α))
  | 0, _, _, _, _ => none
  | fuel + 1, front, n, volume, distance =>
    if 0 < n then do
      let r ← filterNondominated front n d
      let t ← lowerVolume d sub r.1 r.2
      let dist ← surface t.2 n d
      let volume := volume + t.1 * (dist - distance)
      let q ← reduce t.2 n d dist
      hvLoop d sub fuel q.1 q.2 volume dist
    else some (volume, front)

/-- `CalculateHypervolume(front, noPoints, noObjectives)` — hypervol.c:154-183: the volume and the permuted array.  For `noObjectives = 0` and at
least one point `SurfaceUnchangedTo` reads before the point (undefined). -/
def hypervolume : (noObjectives : Nat) → List (List α) → (noPoints : Nat) → Option (α × List (List α))
  | 0, front, n => if 0 < n then none else some (lit 0, front)
  | d + 1, front, n => hvLoop d (hypervolume d) (n + 1) front n (lit 0) (lit 0)

/-- The C array filled by `stat::HyperVolume` — experimental/stat/hyper_volume.hpp:73-79.  `ref(k)` asserts that `k` is below the number of
values of the parameter. -/
def statData (ref : List α) (obs : List (List α)) : Option (List (List α)) :=
  obs.mapM fun o => if o.length ≤ ref.length then some (List.zipWith (fun x r => x + r) o ref) else none

/-- `stat::HyperVolume` — experimental/stat/hyper_volume.hpp:65-93: no header, the tag is `current_iteration()`, the number of objectives is
that of the first observation. -/
def statHyperVolume {M : Type} (ref : List α) : Stat α M := fun st _ =>
  match st.observations with
  | [] => some []
  | o :: _ => do
    let data ← statData ref st.observations
    let r ← filterNondominated data st.observations.length o.length
    let h ← hypervolume o.length r.1 r.2
    some [.row st.currentIteration [h.1]]

end Limbo.Hv
