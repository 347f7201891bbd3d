import Verif.Model.Multi

/-!
The statistics of the multi-objective optimizers: `experimental/stat/pareto_front.hpp` and `experimental/stat/pareto_benchmark.hpp`.

Both write files whose name contains `current_iteration()`, opened for writing (so an existing file of that name is emptied first).
`ParetoBenchmark` does not test `stats_enabled()`: with statistics disabled `res_dir()` is empty and the files go to `/`.
`ParetoFront` is a `Stat`: the rows of the file `pareto_front_<i>.dat` are log lines with tag `i`.  Text formatting is not modelled.
-/

namespace Limbo

variable {α M : Type} [Scalar α]

/-- `stat::ParetoFront` (`experimental/stat/pareto_front.hpp:61-74` with `_pareto_data`, `_pack_data`, `:77-99`): the assertion on the sizes, the
two assertions of `pareto_set` (the population is not empty here), and one line for each element of the result, sample then observation.
`pset` is `pareto_set<1>` (any of the results allowed by `ParetoSet`).  The third component of the packed points (vectors of zeros of length
`observations().size()`) is neither read by `pareto_set<1>` nor written, so it is left out.  `stats_enabled()` is tested by `updateStats`. -/
def statParetoFront (pset : BoState α M → List (List α × List α) → List (List α × List α)) : Stat α M := fun st _ =>
  match st.observations with
  | [] => some []
  | o :: _ =>
    if st.samples.length = st.observations.length then
      if 1 < o.length then some ((pset st (st.samples.zip st.observations)).map fun p => .row st.currentIteration (p.1 ++ p.2)) else none
    else none

/-- The changes made to the optimizer by `stat::ParetoBenchmark` (`experimental/stat/pareto_benchmark.hpp:59-62`); `nsbo` = compiled with `NSBO`,
`dim` = `F::dim_in()`. -/
def paretoBenchmark (P : MuParams α M) (nsbo : Bool) (dim : Nat) (st : BoState α (MM α M)) : Res (BoState α (MM α M)) :=
  (updateParetoData P st).andThen fun st => if nsbo then .ok st else updateParetoModel P dim st

/-- The rows of the four files of `stat::ParetoBenchmark`. -/
structure BenchFiles (α : Type) where
  /-- `pareto_model_<i>.dat` -/
  model : List (List α)
  /-- `pareto_model_real_<i>.dat` -/
  modelReal : List (List α)
  /-- `pareto_data_<i>.dat` -/
  data : List (List α)
  /-- `obs_<i>.dat` -/
  obs : List (List α)

/-- What `stat::ParetoBenchmark` then writes (`experimental/stat/pareto_benchmark.hpp:63-84`); `f` is the benchmark function.
The index `i` of the last loop is below the number of observations; `samples()[i]` out of range gives `none`. -/
def benchFiles (f : List α → List α) (st : BoState α (MM α M)) : Option (BenchFiles α) :=
  if st.samples.length < st.observations.length then none
  else some {
    model := st.model.paretoModel.map fun p => p.2.1 ++ p.2.2
    modelReal := st.model.paretoModel.map fun p => f p.1
    data := st.model.paretoData.map fun p => p.2.1
    obs := List.zipWith (fun o s => o ++ s) st.observations st.samples }

end Limbo
