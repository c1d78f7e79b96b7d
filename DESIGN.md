# DESIGN — a Lean 4 model of COSIPY and what is proved about it

This document was written before the proofs and is kept in step with them.
Source under study: `/repo` (cryotools/cosipy, Python + numba), read as text, never executed.

## 1. How the code is modelled

* **Shallow embedding.** Every modelled Python function is a total Lean function in
  `lean/Verif/Model/*.lean`. Mutable objects (`Grid`, `Node`) become immutable records;
  a method that mutates returns the new record. Every definition cites file and lines.
* **Exceptions are values.** `M β = Except Err β` with `Err` = `index` (IndexError),
  `zeroDiv` (ZeroDivisionError, raised by numba's default error model for scalar `/ 0`),
  `value` (ValueError), `type`, `attribute`, `key`, `runtime`, `notImpl`, and `diverge`
  (the loop did not stop within the given fuel). A failing call keeps no state: in COSIPY
  every such exception aborts the grid point.
* **Loops.** `while` loops run on fuel through one combinator (`whileM`); running out of
  fuel is the visible result `diverge`, never a normal return. Termination theorems say
  that enough fuel exists, and that more fuel never changes a result. `for idx in range(n)` loops whose body
  touches only layer `idx` (and hands a scalar or a push to `idx+1`) are traversals of the
  layer list.
* **Indices.** Layers sit in a numba typed list: negative indices wrap, out-of-range
  raises. Indices are `Int` with exactly that rule (`normIdx`).
* **Arithmetic.** Model functions are polymorphic in the number type `α` and use only
  operation classes (`Add`, `Mul`, `Div`, `LT`, `DecidableLT`, `BEq`, `OfScientific`, …)
  *without any laws*. Theorems come in two kinds:
  * *structural* theorems hold for every `α`, so also for IEEE-754 doubles with NaN,
    infinities and rounding;
  * *numeric* theorems are about exact arithmetic: any linearly ordered field `K`
    (ℚ for executable witnesses, ℝ for the analysis), or ℝ where `exp`, `log`, `tanh`, `cos`,
    real powers occur.
  * *rounded* theorems (C81) hold for every arithmetic with the few laws that survive rounding (`Rounded`); IEEE binary64
    without overflow is proved to be one (`Model/Float.lean`) and computes inside the kernel.
  The other numeric theorems do **not** model rounding error.
* **Constants** (`constants.toml`) are a record `Consts α`. Theorems quantify over all of them
  under explicit, satisfiable sign/order hypotheses (`Consts.Phys`); the shipped defaults
  are the instance `Consts.default`, proved to satisfy them.
* **Library code** not in the repository (numpy, numba, xarray, scipy, pandas, dask, toml) is
  modelled by the behaviour the code relies on, stated at the definition. `scipy.optimize.minimize`
  and `newton` are parameters.

Layout: `Verif/Model/` model; `Verif/Spec/` small independent vocabulary used in statements;
`Verif/Lemmas/` proof machinery; `Verif/Props/Cxx*.lean` the property theorems with their
non-vacuity examples.

## 2. The properties: model, method, theorems, status

139 properties: 73 partial, 66 proved. "partial" means the property as stated is false of the code or proved under
an extra assumption; the refutation and the strongest true part are both proved.
Letters in brackets are the axioms a theorem depends on: p = `propext`, c = `Classical.choice`, q = `Quot.sound`, – = none.

### C01 — The layer counter always equals the number of stored layers

*Status:* **proved**. *Modelled from:* `cosipy/cpkernel/grid.py:Grid.add_fresh_snow`, `cosipy/cpkernel/grid.py:Grid.remove_node`, `cosipy/cpkernel/grid.py:Grid.merge_nodes`, `cosipy/cpkernel/grid.py:Grid.correct_layer`, `cosipy/cpkernel/grid.py:Grid.split_node`, `cosipy/cpkernel/grid.py:Grid.get_number_layers`.

*Method:* all Grid mutators over any arithmetic; invariant `numberNodes = nodes.length` by case analysis per operation and induction over operation sequences.

Induction over arbitrary histories of all 32 column operations and over time steps and runs; any arithmetic (no field laws used).

* `C01_op` [pcq] One operation keeps the counter in step with the stored layers.
* `C01_new` [pq] Every freshly constructed column satisfies the invariant.
* `C01_history` [pcq] Every history of operations keeps it.
* `C01_counter` [pcq] A column that was constructed and then went through any history of operations reports exactly the number of its layers; every layer index below that number can be read, no other non-negative index can; and each whole-column getter returns one value per layer.
* `C01_step` [pcq] The time step keeps the invariant as well, so it holds at every point of every simulation.
* `C01_run` [pcq] 

### C02 — Merging two layers conserves column height, ice, liquid water and heat

*Status:* **proved**. *Modelled from:* `cosipy/cpkernel/grid.py:Grid.merge_nodes`, `cosipy/cpkernel/grid.py:Grid.update_node`, `cosipy/cpkernel/grid.py:Grid.remove_node`.

*Method:* `mergeNodes`; list-sum lemmas for set/erase; field algebra.

Over every linearly ordered field; also that merge_nodes returns whenever the index is valid and the total height is non-zero.

* `C02_merge_conserves` [pcq] Whenever `merge_nodes(i)` returns on a column of at least two layers — so that the two merged layers are distinct, for negative (wrapping) indices as well — all four column totals are kept and one layer fewer is stored.
* `C02_merge_local` [pcq] At a non-negative index the column is `pre ++ a :: b :: post` with `a` at position `i`; it becomes `pre ++ m :: post`, with `m` holding exactly the content of `a` and `b`; nothing else in the grid's snow-age bookkeeping changes.
* `C02_merge_returns` [pcq] With positive heights `merge_nodes(i)` does return for every `i` that has a layer below it.

### C03 — A merged layer is a mixture of its parents

*Status:* **proved**. *Modelled from:* `cosipy/cpkernel/grid.py:Grid.merge_nodes`, `cosipy/cpkernel/node.py:Node.get_layer_density`.

*Method:* convexity in an ordered field incl. the clamped air term.

Over every linearly ordered field.

* `C03_merge_mixture` [pcq] If `merge_nodes(i)` merges the layers `a`, `b` of positive height into `m`, then temperature, ice fraction and water content of `m` lie between those of `a` and `b`, and its density does not exceed the larger one; hence two snow layers give a snow layer.

### C04 — Adjusting a layer to a target height conserves the column and never mixes snow and ice

*Status:* **proved**. *Modelled from:* `cosipy/cpkernel/grid.py:Grid.correct_layer`.

*Method:* `correctLayer` loop invariant via the `whileM` rule, then the split step.

Conservation, locality, same-side merging and exact target height after a split.

* `C04_correct_layer` [pcq] If `correct_layer(i, h)` returns, the column was `pre ++ run ++ post` with `i` layers in `pre`, and only the layers `run` (starting with layer `i`) were replaced, by one layer of height at most `h` or by two layers of which the first has height exactly `h`; the replacement holds the same height, ice, water and heat.
* `C04_conserves` [pcq] (column totals).

### C05 — Logarithmic remeshing conserves the column

*Status:* **proved**. *Modelled from:* `cosipy/cpkernel/grid.py:Grid.log_profile`, `cosipy/cpkernel/grid.py:Grid.update_grid`.

*Method:* `logProfile`, `updateGrid`; two loop invariants built on C02/C04; the wrap-around `merge_nodes(-1)` is in the model.

No assumption on the column or constants. C05_single_layer_lost shows the one case in which log_profile itself empties the column.

* `C05_log_profile_conserves` [pcq] If `update_grid()` with logarithmic remeshing returns, either all column totals are unchanged and the top layer is at least `minimum_snow_layer_height` thick, or exactly one layer, thinner than `minimum_snow_layer_height`, was dropped from the top and its content is all that is missing.
* `C05_log_profile_alone` [pcq] `log_profile()` on its own: the totals are kept or the column became empty (see C05_single_layer_lost).
* `C05_single_layer_lost` [pcq] The second alternative really occurs in `log_profile()` itself: a single ice layer thinner than `first_layer_height` is merged with itself through index `-1` and disappears (in `update_grid()` the following access to layer 0 then raises IndexError).

### C06 — Adaptive remeshing only discards thin layers and limits merges

*Status:* **partial**. *Modelled from:* `cosipy/cpkernel/grid.py:Grid.adaptive_profile`.

*Method:* `adaptiveProfile` loop invariant with ghost list of deleted layers; merge counter bound; counterexample for merge_max.

Conservation up to deleted thin layers is proved in full. The documented merge limit is violated by one (C06_merge_limit_exceeded); C06_merge_limit_partial proves merge_max+1.

* `C06_adaptive_conserves` [pcq] `adaptive_profile()` conserves height, ice, water and heat of the column up to the layers it deletes, and every deleted layer is at most `minimum_snow_layer_height` thick.
* `C06_update_grid_conserves` [pcq] For the whole `update_grid()` with adaptive remeshing.
* `C06_merge_limit_partial` [pcq] The similarity loop performs at most `merge_max + 1` merges.
* `C06_merge_limit_exceeded` [pcq] With `merge_max = 1` one call merges two pairs: four equal snow layers become two before the top layer is cut.

### C07 — Remeshing always terminates

*Status:* **proved**. *Modelled from:* `cosipy/cpkernel/grid.py:Grid.log_profile`, `cosipy/cpkernel/grid.py:Grid.adaptive_profile`, `cosipy/cpkernel/grid.py:Grid.correct_layer`.

*Method:* decreasing measure `layers - idx` (any arithmetic) for adaptive/correct; geometric argument for log (exact); divergence witness for stretching < 1.

Termination for every input (adaptive, correct_layer); log_profile for first_layer_height>0, stretching>=1; a diverging case for stretching<1.

* `C07_correct_layer` [pcq] `correct_layer` terminates on every grid, index and target, in any arithmetic (NaN included).
* `C07_adaptive` [pcq] With adaptive remeshing (or an unknown `remesh_method`, which does nothing) `update_grid()` terminates on every grid, in any arithmetic.
* `C07_log` [pcq] With logarithmic remeshing `update_grid()` terminates on every column whenever `first_layer_height > 0` and `layer_stretching ≥ 1`.
* `C07_shrinking_diverges` [pcq] With `layer_stretching < 1` `update_grid()` can run forever: one metre of dry snow, `first_layer_height = 0.5 m`, `layer_stretching = 0.5`.

### C08 — Remeshing keeps volume fractions physical

*Status:* **partial**. *Modelled from:* `cosipy/cpkernel/grid.py:Grid.merge_nodes`, `cosipy/cpkernel/grid.py:Grid.correct_layer`.

*Method:* convexity for merge; concrete counterexample for correctLayer.

True for merging; refuted for correct_layer/update_grid (C08_correct_layer_oversaturates). The _partial theorems prove the true remainder: ranges of ice fraction and temperature, non-negative water, dry columns.

* `C08_merge_physical` [pcq] Merging keeps every layer's ice plus water fraction at most one (and heights positive).
* `C08_update_grid_ranges_partial` [pcq] (what is true of the whole of `update_grid()`): with positive heights, ice fractions in `[lo, hi]`, `lo > 0`, temperatures in `[tlo, thi]` and non-negative water before, the same holds afterwards.
* `C08_update_grid_dry_partial` [pcq] Without liquid water `update_grid()` does keep all fractions physical.
* `C08_correct_layer_oversaturates` [pcq] One metre of snow with 3 % liquid water is physical; after `correct_layer(0, 0.01)`, and also after `update_grid()` with the shipped constants, the new 1 cm top layer has a water fraction of 3.

### C09 — The top layer has the configured first layer height after remeshing

*Status:* **partial**. *Modelled from:* `cosipy/cpkernel/grid.py:Grid.log_profile`, `cosipy/cpkernel/grid.py:Grid.correct_layer`.

*Method:* first iteration lemma; counterexample column; lower bound as `_partial`.

False as documented: C09_top_layer_thicker is a concrete column whose top layer ends thicker. Proved: the first correction sets it (C09_first_correction), dry snow over ice never ends with a thinner top layer, and it is exact when enough snow remains below.

* `C09_first_correction` [pcq] If the column starts with snow layers of total height at least `h`, then after `correct_layer(0, h)` the top layer has height exactly `h`.
* `C09_top_not_thinner_partial` [pcq] For dry snow over ice with at least `first_layer_height` of snow, the top layer after `log_profile()` is never thinner than `first_layer_height`.
* `C09_top_exact_partial` [pcq] It has exactly that height once there is enough snow for the first two layers.
* `C09_top_layer_thicker` [pcq] With 1.5 cm of dry snow and the shipped constants (`first_layer_height` 1 cm) the top layer after `log_profile()` is 1.5 cm thick.

### C10 — Splitting a layer conserves its content

*Status:* **partial**. *Modelled from:* `cosipy/cpkernel/grid.py:Grid.split_node`.

*Method:* direct algebra; refutation for water with the exact loss.

Height, ice and heat conserved; C10_split_loses_water refutes the liquid-water part; for positions counted from the bottom, C10_negative_position and C10_negative_grows show that the new layer goes to the top (lowest layer) or is the one that is halved, so that the column grows.

* `C10_split_effect` [pcq] `split_node(i)` on an existing layer returns; the layer is replaced by two layers of half the height with the same temperature and ice fraction, and *half the liquid water content*; nothing else changes.
* `C10_split_conserves_partial` [pcq] Height, ice and height-weighted temperature are conserved; of the layer's liquid water exactly half is left.
* `C10_split_loses_water` [pcq] Whenever the layer holds liquid water, `split_node` does not conserve it.
* `C10_negative_adds` [pcq] Counted from the bottom, every layer but the lowest is left as it is.
* `C10_negative_grows` [pcq] The column grows by a quarter of the layer.
* `C10_negative_position` [pcq] Negative positions are not supported by `split_node`: `split_node(-1)` inserts the new half at the *top* of the column.

### C11 — Removing melt removes exactly the requested water equivalent

*Status:* **proved**. *Modelled from:* `cosipy/cpkernel/grid.py:Grid.remove_melt_weq`.

*Method:* induction on the layer list; exact arithmetic.

Exact water-equivalent accounting over any number of consumed layers; also that it returns on every such column.

* `C11_exact` [pcq] `remove_melt_weq(m)` with `0 ≤ m <` column water equivalent lowers the column water equivalent by exactly `m`.
* `C11_all` [pcq] With `m ≥` column water equivalent the column becomes empty (layers of positive water equivalent).
* `C11_returns` [pcq] `remove_melt_weq` returns for every column and every melt amount.

### C12 — Melt is taken strictly from the top

*Status:* **proved**. *Modelled from:* `cosipy/cpkernel/grid.py:Grid.remove_melt_weq`.

*Method:* same induction, structural part for any arithmetic with total order.

Removed layers are a prefix, at most the next one is thinned, everything below is untouched; non-positive melt changes no layer.

* `C12_prefix` [pcq] The column after `remove_melt_weq(m)` is the old one without a prefix `removed`, and with at most its next layer replaced by one that differs in height only; the height of that layer is smaller (and positive) if its density and height are positive.
* `C12_minimal` [pcq] No layer is removed that could have been kept: the layers removed together hold at most `m`, and nothing is removed unless `m > 0`.
* `C12_no_melt` [pq] A non-positive melt leaves all layers unchanged and returns no water.

### C13 — Water handed to percolation equals the mass taken from the column

*Status:* **partial**. *Modelled from:* `cosipy/cpkernel/grid.py:Grid.remove_melt_weq`, `cosipy/cpkernel/cosipy_core.py:cosipy_core`.

*Method:* witness + exact excess formula.

False: C13_double_count is a concrete column. Proved: the exact surplus (liquid water of the removed layers), and equality for dry columns.

* `C13_balance_partial` [pcq] For `0 ≤ m <` column water equivalent, the water released (`m` plus the returned water) exceeds the water equivalent taken from the column by exactly the liquid water of the removed layers.
* `C13_dry_partial` [pcq] For a dry column the balance is exact.
* `C13_double_count` [pcq] 5 cm w.e.

### C14 — The tracked fresh-snow height shrinks with melt

*Status:* **partial**. *Modelled from:* `cosipy/cpkernel/grid.py:Grid.remove_melt_weq`, `cosipy/cpkernel/grid.py:Grid.get_fresh_snow_props`.

*Method:* theorem that the tracker is unchanged; witness.

False: C14_refuted. Proved: exact behaviour of the tracked height (unchanged, grows on deposition, reduced only when the column is gone).

* `C14_unchanged` [pcq] As long as some of the column is left, the tracked fresh-snow height is *unchanged* by melt.
* `C14_deposition` [pcq] Net deposition (`m < 0`) increases the tracked fresh-snow height by `-m`, although no layer changes.
* `C14_column_gone_partial` [pcq] When the whole column melts, the tracked height is reduced by the melt that exceeded the column.
* `C14_refuted` [pcq] 5 cm w.e.

### C15 — Snow age counts the time since the last significant snowfall

*Status:* **proved**. *Modelled from:* `cosipy/cpkernel/grid.py:Grid.add_fresh_snow`, `cosipy/cpkernel/grid.py:Grid.set_fresh_snow_props`, `cosipy/cpkernel/grid.py:Grid.set_fresh_snow_props_update_time`, `cosipy/modules/albedo.py:get_surface_properties`.

*Method:* event histories as lists, state machine refinement.

Per time step and over arbitrary runs of the model; any solver behaviour, any forcing.

* `C15_significant` [pcq] Only snowfalls of at least `minimum_snowfall` count.
* `C15_step_snow` [pcq] A step with snowfall resets the age, remembers the previous one as age of the underlying snow and records the snowfall height as tracked height (which may then only grow).
* `C15_step_dry` [pcq] A step without snowfall ages both records by `dt`, as long as the tracked fresh-snow height is positive.
* `C15_dry_run` [pcq] Without any snowfall the ages just grow.
* `C15_age` [pcq] In every simulation, whatever came before: if the outputs end in a step with snowfall followed by `n` steps without, the recorded snow age is `n * dt`.
* `C15_before_first_snow` [pcq] Before the first snowfall of a simulation that starts with equal ages (every new column), both ages are the start value plus the elapsed time, whatever the tracked height.
* `C15_ordered_step` [pcq] One step keeps the ages ordered.
* `C15_ordered` [pcq] At every point of every simulation the ages are non-negative and the underlying snow is not younger.

### C16 — Percolation conserves water

*Status:* **proved**. *Modelled from:* `cosipy/modules/percolation.py:percolation`, `cosipy/modules/percolation.py:get_runoff`.

*Method:* induction on the layer list carrying the overflow.

Over every linearly ordered field, any column with a consistent layer counter; also that percolation returns on every non-empty column of non-degenerate layers.

* `C16_conserves` [pcq] Runoff plus the liquid water stored afterwards equals the liquid water stored before plus the supplied water; number of layers, heights, temperatures, ice fractions and the snow-age records do not change.
* `C16_returns` [pcq] It returns on every non-empty column whose layers have non-zero height and ice fraction.

### C17 — After percolation no layer holds more than its irreducible water

*Status:* **proved**. *Modelled from:* `cosipy/modules/percolation.py:percolation`, `cosipy/cpkernel/node.py:Node.get_layer_irreducible_water_content`.

*Method:* same traversal; irreducible water sign lemma.

Saturation needs no sign assumptions; the flux form says that any cumulative deficit implies the layer holds exactly its irreducible water.

* `C17_saturation` [pcq] Afterwards every layer but the last holds at most its irreducible water content and the last holds none.
* `C17_flux` [pcq] Where water passes: cut the column below any layer `x` but the last (`y` is that layer afterwards).
* `C17_nonneg` [pcq] With non-negative supply and physical layers, all water contents and the runoff are non-negative.

### C18 — Refreezing conserves mass and reports what it froze

*Status:* **proved**. *Modelled from:* `cosipy/modules/refreezing.py:refreezing`.

*Method:* per-layer algebra + traversal.

Layer by layer and for the column total.

* `C18_layers` [pcq] Layer by layer: height and mass of ice plus water are kept, and the layer's refreeze record is the liquid water it lost times its height.
* `C18_total` [pcq] The returned amount is the sum of the per-layer records, which is the column's loss of liquid water; the mass of the column and all heights are unchanged.

### C19 — Refreezing never overheats, cools or over-densifies a layer and never fails on valid input

*Status:* **proved**. *Modelled from:* `cosipy/modules/refreezing.py:refreezing`, `cosipy/modules/refreezing.py:check_oob`.

*Method:* per-layer inequalities; check_oob never fires; traversal.

Under the physical ordering of the constants (Consts.Phys, satisfied by the shipped ones).

* `C19_layer_returns` [pcq] For a valid layer the loop body never raises.
* `C19_returns` [pcq] On every column of valid layers refreezing returns normally.
* `C19_layer` [pcq] Effect on one valid layer.
* `C19_effect` [pcq] For every column of valid layers: no layer is cooled, a layer at or below melting point stays there, liquid water never grows, ice never shrinks, fractions stay in [0,1], and no layer's dry density rises above the snow/ice threshold.

### C20 — Refreezing releases exactly the latent heat of the frozen water

*Status:* **proved**. *Modelled from:* `cosipy/modules/refreezing.py:refreezing`.

*Method:* per-layer algebra; refutation of the documented limit.

Energy balance per layer; the cold-content limit coded is larger than the one of the cited energy equation, but a second, stricter limit makes it inactive, so the result is right (C20_code_limit_inactive).

* `C20_energy` [pcq] For every layer of every column: (heat capacity of the ice and water after freezing) × (temperature increase) = latent heat of the liquid water that disappeared.
* `C20_skipped` [pq] A layer without liquid water, or warmer than melting point, only has its refreeze record set to zero.
* `C20_at_melting` [pcq] A layer at melting point refreezes nothing.
* `C20_limit_balance` [pcq] `coldContentLimit` is the solution of the documented energy balance.
* `C20_code_limit_too_large` [pcq] For every wet layer below melting point the limit in the code is larger than the amount that exhausts the cold content.
* `C20_code_limit_inactive` [pcq] It has no effect: the amount that freezes is at most `(bulk limit)`, which is below both limits, so the cold-content limit of the code is never the one that decides.

### C21 — Heat conduction obeys the maximum principle

*Status:* **proved**. *Modelled from:* `cosipy/modules/heatEquation.py:solveHeatEquation`.

*Method:* explicit scheme is a convex combination (weights <= 0.8); induction over sub-steps.

Discrete maximum principle for every column of conducting layers: temperatures after solve_heat_equation stay between the extremes before it.

* `C21_max_principle` [pcq] If all temperatures lie between `lo` and `hi`, they do after conduction over any time `dt`.

### C22 — Heat conduction keeps the end layers fixed and is flux conservative and order preserving

*Status:* **proved**. *Modelled from:* `cosipy/modules/heatEquation.py:solveHeatEquation`.

*Method:* same; summation by parts.

Only temperatures change; the end layers keep theirs; an isothermal column stays so; order is preserved; heat balance of the interior equals the flux difference at its ends.

* `C22_only_temperature` [pcq] 
* `C22_ends` [pcq] The temperatures of the first and of the last layer do not change.
* `C22_isothermal` [pcq] A column of one temperature is not changed at all.
* `C22_comparison` [pcq] Of two columns that differ only in their temperatures, the one that is nowhere colder stays nowhere colder, for any integration time.
* `C22_flux` [pcq] One sub-step of length `τ` changes the spacing-weighted sum of the inner temperatures by `τ` times the flux in at the bottom minus the flux out at the top.

### C23 — Heat conduction sub-stepping terminates and integrates exactly dt

*Status:* **proved**. *Modelled from:* `cosipy/modules/heatEquation.py:solveHeatEquation`.

*Method:* Archimedean argument for sub-steps.

Sub-steps add up to dt exactly; terminates when all diffusivities and spacings are positive; two adjacent zero-height layers make the loop run for ever.

* `C23_integrates` [pcq] For a non-negative `dt` the new temperatures are those reached by sub-steps with positive lengths, none above the stability bound of the column, that add up to exactly `dt`.
* `C23_negative_dt` [pcq] A negative `dt` changes nothing.
* `C23_terminates` [pcq] On a column of at least three conducting layers the solve returns a column, whatever the integration time, after finitely many sub-steps.
* `C23_zero_heights_diverge` [pcq] If two neighbouring layers both have height 0 (all diffusivities defined), the stability bound is 0 and the sub-stepping never ends for any positive `dt`.

### C24 — Columns of fewer than three layers cannot be advanced

*Status:* **proved**. *Modelled from:* `cosipy/modules/heatEquation.py:solveHeatEquation`, `cosipy/modules/percolation.py:percolation`.

*Method:* error-branch theorems.

Columns with fewer than three layers make heat conduction raise ValueError; consequences for one step and a whole run; an empty column makes percolation raise IndexError.

* `C24_heat_raises` [pcq] On a column of fewer than three layers `solveHeatEquation` raises, whatever the layers.
* `C24_heat_value_error` [pcq] If the layers are conducting, what is raised is a `ValueError`.
* `C24_percolation_empty` [p] Percolation raises an IndexError on an empty column.
* `C24_step` [pcq] A time step that returns leaves at least three layers.
* `C24_run` [pcq] Along a run every recorded state has at least three layers.

### C25 — Penetrating radiation never exceeds its share of net shortwave

*Status:* **proved**. *Modelled from:* `cosipy/modules/penetratingRadiation.py:method_Bintanja`.

*Method:* telescoping with exp over ℝ.

Over the reals: the absorbed share is between 0 and 1, energy given to layers is nonnegative and its total never exceeds the absorbed radiation.

* `C25_share` [pcq] What is withdrawn from the surface is exactly 10% of the net shortwave radiation over snow (first layer not denser than the snow/ice threshold) and 20% over ice; it is never more than the radiation.
* `C25_energy` [pcq] The energies absorbed per second by the layers (all but the last) are non-negative, add up to exactly the share times `1 - exp(-k z)` with `z` the depth of the middle of the lowest of them, hence to at most the share.
* `C25_total` [pcq] Altogether the layers take up at most the withdrawn share times `dt`.

### C26 — Penetrating radiation leaves layers at or below melting and conserves mass of thinned layers

*Status:* **proved**. *Modelled from:* `cosipy/modules/penetratingRadiation.py:method_Bintanja`.

*Method:* per-layer case analysis, removal as filter.

Every layer is warmed, thinned or removed exactly as the energy it got says; the method returns on every valid column.

* `C26_outcome` [pcq] Every layer but the last has one of the outcomes above with some absorbed energy `e ≥ 0`; the kept ones stay in order, the last layer is untouched, and nothing else of the column changes but the layer counter.
* `C26_returns` [pcq] On every non-empty valid column the method returns.

### C27 — Reported subsurface melt equals the ice that melted

*Status:* **partial**. *Modelled from:* `cosipy/modules/penetratingRadiation.py:method_Bintanja`.

*Method:* exact reporting formula; witness.

Refuted: reported melt is less than the ice lost whenever a layer thins (C27_underreports, C27_refuted). Kept: the exact formula per layer.

* `C27_formula_partial` [pcq] The returned melt is the sum over the layers of a report that is, for a kept layer, its ice loss times the ratio of new to old height, and for a removed layer at least its whole ice.
* `C27_underreports` [pcq] Whenever no layer is removed and some layer melts, the returned melt is strictly less than the water equivalent of the ice lost.
* `C27_refuted` [pcq] On this column, with 100 W m⁻² for an hour and the shipped constants, the method returns, no layer is removed, and the reported melt is less than the water equivalent of the ice lost.

### C28 — Densification conserves mass

*Status:* **partial**. *Modelled from:* `cosipy/modules/densification.py:method_Boone`, `cosipy/modules/densification.py:densification`.

*Method:* per-layer factor; witness; frame theorems.

Refuted for Boone on every column with compactible top snow; exact mass factors for all methods; Vionnet swells snow on a 3 degree slope. Kept: temperatures, ice layers, monotone thickness and density.

* `C28_boone_factor` [pcq] A layer is either unchanged or below the snow/ice threshold and thicker than the minimum height; then a positive `d` exists by which it shrinks, and its mass is multiplied by `1 - d²` when dry and by `(1 + d/2)(1 - d)` when wet.
* `C28_boone_loses` [pcq] Whenever Boone compaction changes a column at all, the column loses mass.
* `C28_boone_refuted` [pcq] On every column whose uppermost layer is snow thicker than the minimum height, Boone compaction returns and the column has lost mass.
* `C28_vionnet_factor` [pcq] As Boone, with a `d` that has the sign of the cosine of the slope *taken in radians*.
* `C28_empirical_change` [pcq] A layer is unchanged, or its density `ρ` is below 600 and afterwards density times height equals `(ρ' - Δρ) · height` with `Δρ = (600 - ρ) dt / 800000`, not `ρ · height`.
* `C28_monotone_partial` [pcq] For every method (Vionnet with a slope whose cosine as computed is not negative), no layer is added or removed, temperatures and refrozen water are untouched, no layer gets thicker, no layer gets less dense, and layers at least as dense as the snow/ice threshold and 600 kg m⁻³ are unchanged.
* `C28_vionnet_slope_refuted` [pcq] On a slope of 3 degrees every snow layer the Vionnet method touches gets thicker; layers it does not touch keep their height.

### C29 — Oerlemans albedo stays in its physical range and ages monotonically

*Status:* **proved**. *Modelled from:* `cosipy/modules/albedo.py:method_Oerlemans`, `cosipy/modules/albedo.py:get_simple_albedo`, `cosipy/modules/albedo.py:get_albedo_with_decay`.

*Method:* monotonicity of exp over ℝ.

Over the reals, Oerlemans scheme: range, no brightening with age, no darkening with depth.

* `C29_range` [pcq] The albedo of a snow surface lies between the albedos of ice and of fresh snow, and an ice surface has the ice albedo.
* `C29_ages` [pcq] Of two calls on the same layers, the one that ends with the older snow returns no brighter surface.
* `C29_depth` [pcq] Of two snow surfaces of the same age, the one on deeper snow is not darker.

### C30 — Bougamont snow albedo stays between firn and fresh-snow albedo

*Status:* **partial**. *Modelled from:* `cosipy/modules/albedo.py:method_Bougamont`.

*Method:* affine recurrence; boundedness iff; divergence by induction.

Refuted: with the shipped constants and hourly steps an aged melting surface leaves every bound (C30_refuted, factor -1.4 per step in C30_melting_factor). C30_range_partial: the range holds when time scale times step length in days is at least one. With the Oerlemans method the value is handed on unchanged (C30_oerlemans_run).

* `C30_range_partial` [pcq] If in every update the time scale times the step length in days is at least one, the snow albedo stays between the albedos of firn and fresh snow for ever.
* `C30_melting_factor` [pcq] With the shipped constants and hourly steps, each update of an aged snow surface at the melting point multiplies the distance from the firn albedo by −1.4.
* `C30_refuted` [pcq] Hourly updates of an aged, melting snow surface drive the snow albedo beyond every bound, from every starting value other than the firn albedo.
* `C30_step` [pcq] What a step makes of the snow albedo it is handed: with the Bougamont method it is kept, reset or decayed once, at the surface temperature of the step before.
* `C30_oerlemans_step` [pcq] With the Oerlemans method a step hands on the snow albedo as it got it.
* `C30_oerlemans_run` [pcq] And so does a run of any length: changing to the Bougamont method at a restart starts from the initial snow albedo.

### C31 — Roughness length is bounded and non-decreasing with snow age

*Status:* **proved**. *Modelled from:* `cosipy/modules/roughness.py:method_Moelg`.

*Method:* min/linear order facts.

Range, monotone ageing, linear growth, and that the method returns.

* `C31_range` [pcq] A snow surface has a roughness length between those of fresh snow and of firn, an ice surface that of ice; the constants are in millimetres, the result in metres.
* `C31_ages` [pcq] On the same layers, older snow has no smaller roughness length; the fresh-snow value is met at age zero.
* `C31_linear` [pcq] While below the firn value, the roughness length of snow of age `t` seconds is exactly fresh-snow value plus ageing factor times hours.
* `C31_returns` [pcq] The call returns on every non-empty column (with the only implemented method).

### C32 — Precipitation is split without creating or losing water

*Status:* **proved**. *Modelled from:* `cosipy/cpkernel/cosipy_core.py:cosipy_core`.

*Method:* tanh bounds over ℝ; threshold case analysis.

Splitting by tanh needs only -1 <= tanh <= 1; given snowfall is used as is; missing inputs raise.

* `C32_split` [pcq] From total precipitation, the snow part and the rain part add up to the total exactly and neither is negative.
* `C32_step` [pcq] In every time step driven by total precipitation, the recorded snowfall and rain are zero or at least their detection limits, and what they lose together of the total is not negative and at most the two limits.
* `C32_given` [pcq] When snowfall is an input as well, rain is the total minus the snowfall, and nothing stops the snowfall from exceeding the total: then the rain before thresholding is negative.
* `C32_missing` [pcq] Snowfall alone, or no precipitation at all, does not yield a time step: the first raises TypeError, the second ValueError.

### C33 — Surface vapour fluxes have the right sign, exclude each other and match the latent heat flux

*Status:* **proved**. *Modelled from:* `cosipy/cpkernel/cosipy_core.py:cosipy_core`.

*Method:* case analysis.

Signs of the vapour terms, melt energy, surface/internal balance and cumulative balance for every step and run.

* `C33_signs` [pcq] Losses are not positive, gains not negative, below melting only sublimation and deposition occur, at the melting point only evaporation and condensation, and of the two possible ones at least one is zero.
* `C33_energy` [pcq] The mass exchanged times its latent heat is the latent heat flux over the step: of sublimation below the melting point, of vaporisation at it.
* `C33_melt` [pcq] Melt energy is the positive part of the surface energy balance, melt is it divided by the latent heat of melting (and 1000 kg m⁻³), and neither is ever negative.
* `C33_balance` [pcq] Surface balance is snowfall (water equivalent) minus melt plus the vapour fluxes except condensation; internal balance is refreezing minus subsurface melt; the balance is their sum.
* `C33_cumulative` [pcq] Over a whole run, the accumulated balance grows by exactly the sum of the recorded balances.

### C34 — Surface temperature never exceeds melting point

*Status:* **proved**. *Modelled from:* `cosipy/modules/surfaceTemperature.py:update_surface_temperature`, `cosipy/modules/surfaceTemperature.py:check_residual_clip`.

*Method:* case analysis on solver outcome; solver as arbitrary function.

Assumes only that the external minimisers respect their lower bound (RespectsLower); an unknown method raises.

* `C34_bounds` [pcq] When the surface temperature update returns, the temperature is between 220 K and the melting point, it is the temperature of the uppermost layer afterwards, nothing else of the column changed, and the returned fluxes are those at this temperature.
* `C34_step` [pcq] The recorded surface temperature of every time step is between 220 K and the melting point.
* `C34_unknown_method` [pcq] An unknown method name raises NotImplementedError on every column on which the subsurface temperatures can be interpolated.

### C35 — Turbulent fluxes vanish in calm or very stable air and follow the gradient

*Status:* **proved**. *Modelled from:* `cosipy/modules/surfaceTemperature.py:eb_fluxes`.

*Method:* order facts over ℝ with log positivity.

Over the reals, Richardson correction: factor in [0,1], jump at 0.01, monotone, vanishing fluxes, flux directions.

* `C35_factor` [pcq] The stability factor lies between zero and one and is zero for Richardson numbers above 0.2.
* `C35_jump` [pcq] The factor jumps down by almost a tenth at 0.01: it is one there, and below 0.9025 for every larger Richardson number.
* `C35_factor_antitone` [pcq] The factor does not increase with stability.
* `C35_vanish` [pcq] Without wind, or when the bulk Richardson number exceeds 0.2, both turbulent fluxes vanish.
* `C35_direction` [pcq] The sensible heat flux is directed along the temperature difference, the latent heat flux along the difference of mixing ratios.

### C36 — The secant solver terminates, never divides by zero and solves affine balances exactly

*Status:* **proved**. *Modelled from:* `cosipy/modules/secant.py:secant`.

*Method:* bounded loop; affine exactness by calculation.

The secant iteration: denominators, chord update, number of evaluations, errors, exact on affine functions, silent non-convergence.

* `C36_denominators` [pcq] The update is only evaluated for different function values, and then the denominators of the branch taken are not zero.
* `C36_chord` [pcq] In both branches the new point is the zero of the straight line through the last two points.
* `C36_evaluations` [pcq] The function is evaluated at least twice and at most `maxiter + 2` times.
* `C36_errors` [pcq] With a positive tolerance, at least one iteration and no second start value, the only exceptions are RuntimeError (equal function values at different points) and those the function itself raises.
* `C36_affine` [pcq] For a straight line of non-zero slope the solver returns its root exactly, from every start value.
* `C36_unconverged` [pcq] For every iteration limit there is a function without zeros for which the solver, called as the energy balance calls it (start 270, tolerance 0.01), returns a value without reporting that it did not converge.

### C37 — The Monin-Obukhov iteration stops within seven passes

*Status:* **proved**. *Modelled from:* `cosipy/modules/surfaceTemperature.py:eb_fluxes`.

*Method:* fuel bound independent of arithmetic.

At least one and at most seven passes of the Monin-Obukhov loop, for any arithmetic; calm air gives zero turbulent fluxes.

* `C37_terminates` [pq] The iteration terminates with a value; it takes at least one and at most seven passes, and the values are those of its last pass.
* `C37_fluxes` [pq] Computing the fluxes never runs out of passes.
* `C37_calm` [pcq] Without wind both turbulent fluxes are zero, whatever else is measured.

### C38 — Interpolated subsurface temperature lies between its two neighbours

*Status:* **proved**. *Modelled from:* `cosipy/modules/surfaceTemperature.py:get_subsurface_temperature`.

*Method:* argmin lemma; linear interpolation bounds; wrap/raise witnesses.

Between neighbours, exact on linear profiles; shallow depths wrap to the lowest layer, deep ones raise.

* `C38_between` [pcq] For a depth from the first lower boundary to above the last one, the routine returns the linear interpolation between the two layers whose lower boundaries enclose the depth; it lies between their temperatures.
* `C38_linear` [pcq] If the layer temperatures are linear in the depth of the lower boundaries, whatever the routine returns is the value of the same linear profile at the requested depth.
* `C38_shallow` [pcq] Above the first lower boundary the routine extrapolates from the uppermost layer using the *lowest* layer (index −1) as second point.
* `C38_deep` [pcq] From the last lower boundary on the routine raises IndexError.
* `C38_shallow_witness` [pcq] In a column that gets warmer downwards, with an uppermost layer thicker than the requested depth, the result is colder than every layer.

### C39 — The initial snowpack is well formed

*Status:* **partial**. *Modelled from:* `cosipy/cpkernel/init.py:init_snowpack`.

*Method:* floor arithmetic, list sums, bounds.

Layer counts, heights, temperatures and dryness are proved for every height and temperature. The density part is false: some layer reports more than the configured bottom density (C39_density_refuted).

* `C39_snowpack_partial` [pcq] The column exists; its snow part adds up to the initial snow height in one to five layers (one below 10 cm), its ice part fills the glacier height with pure ice, the column is dry, temperatures lie between bottom temperature and the air temperature capped at the melting point, and each snow layer was created with a density between the configured ones.
* `C39_ice_only` [pcq] 
* `C39_density_refuted` [pcq] With at least 10 cm of snow, some snow layer reports a density above the configured bottom density (which is the larger of the two in the shipped configuration).
* `C39_missing` [p] A missing initial snow height (NaN, the value that differs from itself) means no snow, in any arithmetic.

### C40 — A layer reports the density it was created with

*Status:* **partial**. *Modelled from:* `cosipy/cpkernel/node.py:Node.__init__`, `cosipy/cpkernel/node.py:Node.get_layer_density`.

*Method:* exact error; refutation.

False below the density of ice (C40_refuted, exact excess C40_reported). Kept: bound, order and exactness for ice.

* `C40_reported` [pcq] A dry layer created with density `ρ ≤ ρ_ice` reports `ρ + (1 - ρ/ρ_ice) ρ_air²/ρ_ice`.
* `C40_refuted` [pcq] For every density below that of ice the reported density is larger.
* `C40_reported_partial` [pcq] The reported density is never below the given one, exceeds it by at most `ρ_air²/ρ_ice`, keeps the order of densities, and is exact for ice.
* `C40_fraction_given` [pq] When the ice fraction is given, the density argument has no effect.

### C41 — Column getters agree with each other

*Status:* **partial**. *Modelled from:* `cosipy/cpkernel/grid.py:Grid.get_depth`, `cosipy/cpkernel/grid.py:Grid.get_node_depth`, `cosipy/cpkernel/grid.py:Grid.get_total_snowheight`, `cosipy/cpkernel/grid.py:Grid.get_ice_heights`.

*Method:* list lemmas; witness with an ice lens.

Depth getters agree on every non-empty column. Snow height is refuted for ice above snow (C41_snowheight_refuted) and proved when snow overlies ice.

* `C41_depth` [pcq] On a non-empty column the depth array has one entry per layer, its entry `i` is what the depth of a single layer returns, and both are the mid-layer depth: all heights above plus half the layer.
* `C41_depth_step` [pcq] By half the heights of the two layers.
* `C41_heights_partial` [pcq] When no ice layer lies above a snow layer, the snow height is the total height of the snow layers, the ice heights are those of the ice layers, and both add up to the total height.
* `C41_counts` [pcq] Whatever the order of layers: the number of snow layers plus the number of ice heights is the number of layers, the ice heights are exactly those of the ice layers, and the snow height is the height of the first so many layers.
* `C41_snowheight_refuted` [pcq] With an ice layer on top of half a metre of snow the reported snow height is 10 cm.

### C42 — Saving and reloading a column is lossless in coupled mode

*Status:* **proved**. *Modelled from:* `cosipy/cpkernel/init.py:load_snowpack`, `cosipy/cpkernel/cosipy_core.py:cosipy_core`.

*Method:* array padding round trip.

Everything but the refreezing amounts (which are not saved and are overwritten by the next step, see C44); more layers than max_layers raise ValueError.

* `C42_roundtrip` [pcq] A column with at most `maxLayers` layers can be saved, and loading what was saved gives back the column: layer count, heights, temperatures, liquid water, ice fractions and snow-age bookkeeping; the value used to fill unused array entries does not matter.
* `C42_overflow` [pq] A column with more layers raises ValueError instead of being saved incompletely.
* `C42_injective` [pcq] Two columns that save to the same data are the same up to the refreezing amounts.
* `C42_needed` [pq] Data that load hold each of the four numbers of a column exactly once, and its five profiles.

### C43 — A standalone restart file can be loaded

*Status:* **partial**. *Modelled from:* `cosipy/cpkernel/io.py:IOClass.create_local_restart_dataset`, `cosipy/cpkernel/init.py:load_snowpack`.

*Method:* dataset as association list; error theorem.

False: loading any standalone restart file raises AttributeError (C43_refuted). Kept: after renaming the three scalars the loader returns what the coupled path returns.

* `C43_refuted` [pq] Loading any restart dataset a standalone run has written raises AttributeError.
* `C43_renamed_partial` [pq] The names are the only difference: after renaming the three scalars, the loader treats the standalone dataset exactly as the coupled one.

### C44 — Interrupting and resuming a simulation does not change it

*Status:* **proved**. *Modelled from:* `cosipy/cpkernel/cosipy_core.py:cosipy_core`, `cosipy/cpkernel/init.py:load_snowpack`.

*Method:* step function is independent of what is not saved; list induction.

Every run, every interruption point, including exceptions, for the Oerlemans albedo; a concrete run shows that the Bougamont albedo differs after a restart.

* `C44_append` [pq] A run over `A ++ B` is the run over `A` followed by the run over `B`.
* `C44_resume` [pcq] With the Oerlemans albedo: interrupt a run after any number of steps, save the column, load it, start again from the start values of a new run, and continue with any further steps.
* `C44_bougamont_differs` [pcq] There is a simulation with the Bougamont albedo that, interrupted after two hours, saved, loaded and continued for an hour, stores a different albedo than without the interruption.

### C45 — The order in which grid points finish does not matter

*Status:* **proved**. *Modelled from:* `COSIPY.py:run_cosipy`, `cosipy/cpkernel/io.py:IOClass.copy_local_to_global`.

*Method:* fold over permutations with distinct keys.

All schedules: any two completion orders give the same arrays and datasets. Rows of the stake statistics are the same up to order; their order follows the schedule (C45_stake_order_matters).

* `C45_order` [pcq] Collecting the same finished tasks in another order gives the same arrays, the same result dataset and the same restart dataset, or an exception in both cases.
* `C45_run` [pcq] For every domain, mask, workers and any two schedules: same arrays and datasets, or an exception in both cases.
* `C45_stake_rows` [pq] The rows of the stake statistics are the same for every schedule, up to their order.
* `C45_stake_order_matters` [pcq] Their order does depend on the schedule: two tasks, two orders, two different tables.

### C46 — Exactly the glacier cells are simulated and written

*Status:* **proved**. *Modelled from:* `COSIPY.py:run_cosipy`, `cosipy/cpkernel/io.py:IOClass.create_global_result_arrays`.

*Method:* fold characterisation.

Submitted tasks, result variables and restart variables with their sizes (C46_sizes) on every domain and schedule; without a glacier cell the files get no output variables (C46_no_glacier).

* `C46_tasks` [pcq] Unless a glacier cell has NaN input, exactly one task is submitted for every cell of the domain with MASK == 1 and none for any other; otherwise the program stops with SystemExit before any result is collected.
* `C46_written` [pcq] When the program has run through, on any domain and with any schedule: the array of every variable to be output holds, at every glacier cell, what the worker of that cell returned under that name, and the fill value at every other cell.
* `C46_restart` [pcq] The same for every restart variable.
* `C46_sizes` [pcq] The array of every variable to be output is as large as the domain: one value for each time, row and column, and for the layer variables one for each of at most `max_layers` layers.
* `C46_no_glacier` [pcq] Without a glacier cell the program runs through, but adds no variable to the result and restart datasets: the files have none of the configured output variables.

### C47 — Every configured output variable can be written

*Status:* **partial**. *Modelled from:* `cosipy/cpkernel/io.py:IOClass.get_full_field_metadata`, `config.toml:output_full`.

*Method:* finite name tables, decide.

Exact condition on the configured names (C47_iff). False for the default layer list: KeyError on every domain (C47_default_full). True for all selections of the other default names.

* `C47_iff` [pq] With freshly created arrays, writing the results succeeds iff all names are fine.
* `C47_default` [pcq] Any selection of names from the default lists can be written, on any domain, except LW among the layer variables (`LW` only matters when the layers are output).
* `C47_default_full` [pcq] With full field output switched on and the rest of the configuration left at its defaults, writing raises KeyError on every domain.
* `C47_stops` [pcq] If some configured name cannot be written, no run over a domain with a glacier cell ends normally, whatever the workers return.
* `C47_wrong_list` [pcq] A name with metadata in a list in which the program never stores it (for example SNOWHEIGHT in the atmospheric list) is written to the file without complaint, but holds nothing but fill values.

### C48 — Worker results are stored under their own name

*Status:* **proved**. *Modelled from:* `cosipy/cpkernel/cosipy_core.py:cosipy_core`, `COSIPY.py:run_cosipy`, `cosipy/cpkernel/io.py:IOClass.copy_local_to_global`.

*Method:* finite position table, decide, lifted to all values.

Every stored array comes from the position of its own value in the worker result; same for the restart data and the coupled return.

* `C48_stored` [pcq] For every tuple of values a worker returns and every variable that is to be output: once the result has been collected, the variable's array (and the result dataset) holds, at the worker's cell, the value at the position where the kernel returned its own array of that name; the other cells are as before.
* `C48_restart` [pcq] The same for the restart data: it comes from the position of `RESTART`.
* `C48_complete` [p] Every output variable with metadata of its own is stored from some worker array, and every array the worker fills during the time loop is returned; nothing is returned twice.
* `C48_coupled` [–] The tuple of a coupled step has the same layout: wherever it holds a value, this is what the standalone run stores, at each time step, in the array it returns at that position.

### C49 — Coupled mode forces consistent settings

*Status:* **partial**. *Modelled from:* `cosipy/config.py:TomlLoader.set_config_values`, `cosipy/config.py:Config.set_correct_config`, `cosipy/constants.py:Constants.set_correct_config`.

*Method:* fold over key/value lists; idempotence by cases.

The last table with a key wins, when loading fails, the corrections and their idempotence hold for every file. Refuted for coupled mode when a later table repeats a key (C49_refuted); C49_coupled_partial holds when the keys occur in their own tables only, as in the shipped files (C49_shipped).

* `C49_last` [pq] After loading a file the attribute `k` is the last value of `k` in the file; attributes whose key is not in the file are untouched.
* `C49_fails_iff` [p] Loading fails exactly for files with a key outside every table.
* `C49_correct` [pcq] The entries of the corrected configuration, for every table that has the required keys: WRF input sets the names of the dimensions, coupled mode switches the full fields on, zero workers become None; every other entry is as in the file.
* `C49_idempotent` [pcq] Correcting a corrected configuration changes nothing; the same for the constants.
* `C49_constants_idempotent` [pcq] The same for the constants.
* `C49_coupled_partial` [pcq] For files in which full_field, WRF_X_CSPY, albedo_method and stability_correction each occur in their own table only: whenever the loaded configuration says coupled, full fields are on and the constants loaded afterwards use Oerlemans98 and MO.
* `C49_refuted` [p] A valid configuration in coupled mode that ends without full fields.
* `C49_shipped` [pq] Every key of the shipped config.toml and constants.toml occurs once, so `C49_coupled_partial` applies to them whatever values are edited in place.
* `C49_slurm` [pcq] A memory amount per process overrides the total memory by the product with the number of cores and changes nothing else; zero leaves the file's value.
* `C49_values` [pq] `workers` is replaced if it is one of the values Python holds equal to zero: `0`, `0.0` and `false`.

### C50 — Input range checks flag exactly the values outside the documented range

*Status:* **partial**. *Modelled from:* `cosipy/cpkernel/io.py:IOClass.check_input_data`, `cosipy/cpkernel/io.py:IOClass.check_field`.

*Method:* spec of min/max check; swapped-bounds refutation.

The routine and nine of ten fields are proved. The slope bounds are swapped, so every slope strictly between 0 and 90 is reported (C50_slope), and the check always returns True.

* `C50_routine` [pq] For every non-empty field and all bounds the check returns, and says ok iff no value is outside the bounds; NaNs are ignored.
* `C50_empty` [p] An empty field raises ValueError.
* `C50_others_partial` [pcq] For every dataset on which the check returns and every variable other than SLOPE, "ok" is printed iff all its values lie in the range.
* `C50_slope` [pcq] Every slope field with at least one value is flagged, whatever the values.
* `C50_always_true` [pcq] Whenever it returns, the check returns True: values out of range never stop the program.
* `C50_returns` [pcq] The check returns on every dataset without empty fields, and covers every listed variable that is present.

### C51 — Time-sorting the input keeps each record with its timestamp

*Status:* **partial**. *Modelled from:* `cosipy/cpkernel/io.py:IOClass.init_data_dataset`.

*Method:* sorted labels vs data; refutation.

Refuted for input out of time order: labels are sorted, records are not (C51_refuted, C51_iff). C51_sorted_partial: for ordered input exactly the records of the period are used. Empty selections and quoted restart times are characterised.

* `C51_sorted_partial` [pcq] Whatever is returned, it consists of exactly the records of the period, in order, each with its own time stamp.
* `C51_iff` [pcq] With records that can be told apart, sorting the axis leaves every record with its time stamp iff the input was in time order.
* `C51_refuted` [pq] Hourly input in descending order.
* `C51_period` [pcq] The period is refused iff it begins after the last or ends before the first minute of the data (or there is no data).
* `C51_gap` [p] An accepted period may select no record at all.
* `C51_restart` [–] With the times quoted as in the shipped configuration, restarting raises AttributeError before the restart file is looked for.

### C52 — Setup never overwrites a file without consent

*Status:* **proved**. *Modelled from:* `cosipy/utilities/setup_cosipy/setup_cosipy.py:copy_file_to_target`, `cosipy/utilities/setup_cosipy/setup_cosipy.py:get_user_confirmation`.

*Method:* interaction as list of answers, file system as function.

Every file system, every list of answers, every set of arguments: nothing is overwritten without consent, other files are untouched.

* `C52_consent` [pq] For every file system, every sequence of answers and every way the run ends: with `log` the prompts the user answered (file, line typed, in order; a prefix of the lines given), * a file that changed is one of the four target files, and either did not exist, or -y was given, or the user typed yes (and never no) at a prompt for that very file; * a file for which the user typed no is unchanged; * the user is asked only about existing target files, and never with -y; * if the run ends normally, every target file that was missing, or was agreed to, has the contents of the sample, and every existing one was asked about until yes or no (unless -y).
* `C52_again` [pq] A line that is neither yes nor no is followed by another prompt for the same file, unless there is no further line or Python's recursion limit is reached.

### C53 — Preprocessing clamps humidity, radiation and precipitation to valid ranges

*Status:* **partial**. *Modelled from:* `cosipy/utilities/aws2cosipy/aws2cosipy.py:set_relative_humidity_bounds`, `cosipy/utilities/aws2cosipy/aws2cosipy.py:set_bias`.

*Method:* clamp algebra.

Range [0,100] with values in range unchanged; exactly 0 passes and the order is not kept (C53_refuted). Written point and domain files have no gaps on the glacier, humidity in range and no negative precipitation, snowfall or corrected radiation.

* `C53_humidity_partial` [pcq] The result lies in [0, 100]; values in that range are unchanged, larger ones become 100 and negative ones 0.1; NaN stays NaN.
* `C53_refuted` [pcq] A humidity of exactly zero passes, and a smaller (negative) one ends up larger.
* `C53_bias` [pcq] With the limit the value is the corrected one or 0, whichever is larger; without it the corrected one.
* `C53_temperature` [pcq] The check passes iff there are values and all that are not NaN lie between 173.16 K and 373.16 K; otherwise it raises ValueError.
* `C53_point` [pcq] Whatever `create_1D_input` writes has no gaps, one value per time, relative humidity in [0, 100] and no negative precipitation or snowfall.
* `C53_domain` [pcq] Whatever `create_2D_input` writes (Wohlfahrt2016 or no radiation module): every cell of the mask has no NaN, relative humidity in [0, 100], no negative precipitation, snowfall or, with the module, radiation.
* `C53_point_temperature` [pcq] What `create_1D_input` writes lies between 173.16 K and 373.16 K.
* `C53_domain_temperature` [pcq] The temperatures of the station (in kelvin) lie in that range; those of the cells differ from them by the lapse rate and are not checked.

### C54 — Pressure extrapolation leaves the station value unchanged at station height

*Status:* **partial**. *Modelled from:* `cosipy/utilities/aws2cosipy/aws2cosipy.py:get_pressure_bias`.

*Method:* real powers.

Proved for distributed input; for point input the error factor is exact and the claim fails for every station not at sea level (C54_point_iff, C54_refuted).

* `C54_grid_partial` [pcq] A cell at the height of the station gets the measured pressure.
* `C54_grid_transitive` [pcq] Distributed input: extrapolating in two steps is the same as in one.
* `C54_grid_decreasing` [pcq] Distributed input: pressures stay positive and are lower in higher cells.
* `C54_point_factor` [pcq] The pressure at the station's own height is the measured one times a factor.
* `C54_point_iff` [pcq] It is the measured pressure iff the station is at sea level (or the pressure is 0).
* `C54_point_high` [pcq] Above sea level it is too high.
* `C54_refuted` [pcq] With the station height of the shipped configuration: a pressure of 500 hPa becomes more than 502 hPa.

### C55 — WRF conversion: bounded humidity, telescoping precipitation, binary mask

*Status:* **partial**. *Modelled from:* `cosipy/utilities/wrf2cosipy/wrf2cosipy.py:main`.

*Method:* clamp, telescoping sum, mask cases.

Humidity range and value (C55_saturation), telescoping precipitation, snow mass and wind are proved; the mask is right for every class but 0 (C55_mask_partial, C55_mask_refuted).

* `C55_humidity` [pcq] For every state of the atmosphere the relative humidity lies in [0, 100].
* `C55_precipitation` [pcq] One value per time; the first is 0, each other one is the increase of the two accumulated fields together; the sum over the file is the accumulated amount at the end minus that at the beginning.
* `C55_nonneg_iff` [pcq] Exactly: iff the accumulated precipitation never decreases from one time to the next.
* `C55_snow_mass` [pcq] The snow heights carry exactly the accumulated snow water: heights times fresh-snow density add up to the increase of the accumulated field (in mm, i.e.
* `C55_density` [pcq] The computed density of fresh snow is at least 50, so the division is never by zero.
* `C55_mask_partial` [pcq] For a land-use class other than 0 the mask is 1 on the class and 0 elsewhere.
* `C55_mask_refuted` [pcq] Every cell becomes a glacier cell.
* `C55_static_mask` [pcq] Static file: the mask is 1 iff the elevation inside the outline is positive; other values are not positive.
* `C55_static_check` [pq] Static file: the check raises (ValueError) iff a glacier cell has a missing value.
* `C55_wind` [pcq] The wind at 2 m is between 0 and the wind at 10 m, and 0 only in calm air.
* `C55_saturation` [pcq] Air that holds the share `s` of what it can hold has the relative humidity 100 `s` percent, and 100 percent if it holds more.

### C56 — Radiation correction is the identity on flat ground

*Status:* **partial**. *Modelled from:* `cosipy/modules/radCor.py:radCor2D`, `cosipy/modules/radCor.py:Fdif`, `cosipy/modules/radCor.py:haversine`.

*Method:* trigonometric identities over ℝ.

Flat ground, diffuse fraction and great-circle distance (with triangle inequality) are proved over the reals. Never-negative is false for slopes facing away from the sun (C56_refuted); C56_nonneg_partial covers the rest.

* `C56_diffuse` [pcq] Whenever it is computed it lies in [0.2465, 1), and it is computed for every position of the sun but the horizon.
* `C56_diffuse_antitone` [pcq] The clearer the sky, the smaller the diffuse fraction.
* `C56_formula` [pcq] What the correction computes: the beam part times the factor plus the diffuse part.
* `C56_flat` [pcq] With zero slope the result is the measured radiation, for every position of the sun except exactly on the horizon, every aspect, day, radiation and threshold.
* `C56_horizon` [pcq] With the sun exactly on the horizon the correction raises ZeroDivisionError, on flat ground too.
* `C56_threshold` [pcq] Below the zenith threshold all radiation counts as diffuse and no slope changes it.
* `C56_nonneg_partial` [pcq] Holds when the sun is above the horizon and in front of the slope.
* `C56_lower` [pcq] At least the diffuse share remains in that case: 24.65 % of the measured radiation.
* `C56_refuted` [pcq] 600 W/m² with the sun 60° from the zenith on a 60° slope facing away from it: the corrected radiation is negative on every day of the year.
* `C56_haversine` [pcq] The function never fails and answers the radius of the Earth times the angle between the two places.
* `C56_symmetric` [pcq] The distance does not depend on the order of the two places.
* `C56_self` [pcq] A place has distance 0 from itself.
* `C56_range` [pcq] Distances are nonnegative and at most half the circumference; places with distance 0 are the same place of the sphere.
* `C56_triangle` [pcq] The way over a third place is never shorter.

### C57 — Every combination of optional forcings is handled

*Status:* **partial**. *Modelled from:* `cosipy/cpkernel/cosipy_core.py:cosipy_core`.

*Method:* finite table of presence flags; error theorems.

C57_prepare/C57_supported/C57_only_supported: which inputs are read, how a cell with the supported combinations runs and that every other combination raises. Refuted (C57_refuted): not always the documented ValueError. SNOWFALL without RRR raises TypeError, force_use_N without N or no inputs AttributeError, an empty period UnboundLocalError.

* `C57_prepare` [pq] If precipitation is given in one of the two forms and longwave information in one of the two, the step `t` sees exactly the values described by `ReadsAs`, for every step.
* `C57_absent` [p] Without any precipitation input, or without any longwave input, the selection raises AttributeError before the first step, whatever the flags.
* `C57_only_supported` [pcq] A simulation that returns had at least one time step and a supported combination.
* `C57_supported` [pq] Conversely, in a supported combination no step fails for lack of an input: precipitation is split and incoming longwave radiation is found, namely the measured value if it is given and not overruled, else the value from cloud cover.
* `C57_outcome_partial` [pq] With a longwave input and at least one time step, but SNOWFALL as the only precipitation input, the run raises: the documented ValueError if `force_use_TP` is set, an undocumented TypeError otherwise.
* `C57_empty` [pq] An empty period raises UnboundLocalError, not a documented error.
* `C57_ignores_snowfall` [pq] With total precipitation present the flag makes the simulation independent of SNOWFALL, present or not.
* `C57_ignores_lwin` [pq] With cloud cover present the flag makes the simulation independent of LWin.
* `C57_ignores_n` [pcq] If LWin is given and not overruled, the simulation is independent of N, present or not.
* `C57_refuted` [pcq] SNOWFALL without RRR raises TypeError; `force_use_N` without N, and no precipitation or no longwave input at all, raise AttributeError: none of them the documented ValueError.

### C58 — Column mass budget of a time step

*Status:* **proved**. *Modelled from:* `cosipy/cpkernel/cosipy_core.py:cosipy_core`.

*Method:* composition of C02–C28 budget terms over the step model.

C58_step: exact budget of every returning step, with the terms that are not conserved named (thin layer dropped, compaction, pore air counted as melt, water of removed layers, vapour not taken from the column). C58_closed, C58_compaction_sign, C58_no_creation: when the terms vanish and which sign they have.

* `C58_step` [pcq] The exact mass budget of a step.
* `C58_closed` [pcq] With constant density, if nothing had to be melted from the column (deposition at least melt), the sun is down, and no layer is as thin as the minimum height, the mass changes by exactly the accounted fluxes: snowfall plus condensation, rain and melt water minus runoff.
* `C58_compaction_sign` [pcq] Boone compaction, Vionnet compaction with a cosine (as computed) that is not negative and constant density never create mass.
* `C58_no_creation` [pcq] With any densification but `empirical` (Vionnet with a cosine that is not negative), as long as compaction never uses up a layer, the mass of the column after a run of any length is at most the initial mass plus everything the recorded fluxes account for plus the air counted as melt water equivalent, which is zero in every step without removal: nothing else creates mass.

### C59 — Simulated columns stay physical

*Status:* **proved**. *Modelled from:* `cosipy/cpkernel/cosipy_core.py:cosipy_core`.

*Method:* invariant preserved by every stage; induction over the forcing list.

C59_step, C59_run: all forcing sequences, all densification methods (Vionnet: cosine as computed not negative), given positive heights after compaction and air temperature above the floor at which freezing cannot overheat a layer. C59_run_constant and C59_run_empirical need no assumption on compaction; C59_boone_light gives a sufficient mass bound, C59_boone_refuted shows a negative height without it. SciPy minimisers are assumed to respect their lower bound.

* `C59_run_constant` [pcq] With the densification method `constant`, over any forcing sequence with air temperatures at least `tlo`, every layer of every column of the run is physical.
* `C59_step` [pcq] From a physical column, a step with air temperature at least `tlo` gives a column in which every layer whose height is still positive is physical, for every densification method.
* `C59_run` [pcq] For every forcing sequence of any length with air temperatures at least `tlo`: if compaction never uses up a whole layer (all columns of the run have positive layer heights), every layer of every column of the run is physical.
* `C59_run_empirical` [pcq] With the method `empirical` and a time step with `(600 - ρ_air)(1 + (dt / 800000)²) < 600` (below 9.5 h with the shipped constants), over any forcing sequence with air temperatures at least `tlo`, every layer of every column of the run is physical: nothing is assumed about compaction.
* `C59_boone_light` [pcq] If the column's mass (density times height, summed) is `M` and `(1.5 · M · 9.81 / 37000000 + 0.0000028) · dt < 1` (691 kg m⁻² for hourly steps), a physical column stays physical.
* `C59_boone_refuted` [pcq] With the shipped constants and a daily time step, Boone compaction turns a physical column (3 m and 1 m of snow of 93 kg m⁻³ on ice) into one with a layer of negative height.

### C60 — Cumulative mass balance is the sum of the step balances

*Status:* **proved**. *Modelled from:* `cosipy/cpkernel/cosipy_core.py:cosipy_core`, `cosipy/modules/evaluation.py:evaluate`.

*Method:* fold sum; sum of squares.

C60_run/C60_returns: recording stakes does not alter or break a run. C60_mass_balance, C60_snow_height: table entry per measured time. C60_rmse over the reals. C60_evaluate: every outcome of the evaluation. C60_resume: a resumed run counts from zero, so its value lacks the balance before the interruption.

* `C60_run` [pcq] 
* `C60_returns` [pcq] From a well-formed column, if the simulation returns, so does the one with stakes.
* `C60_mass_balance` [pcq] A cell with stakes, started as `cosipy_core` starts it: in the row of a measured time `u`, the table holds the sum of the recorded balances of all steps up to and including the (last) one at `u`; if `u` is not simulated, the value is missing.
* `C60_snow_height` [pcq] Likewise the snow height column holds the total snow height of the column after that step.
* `C60_no_stakes` [pcq] Record nothing.
* `C60_resume` [pcq] If the uninterrupted run recorded the balances `first ++ second` and the resumed one records `second`, the value the uninterrupted run compares with a stake exceeds the one of the resumed run by the whole balance before the interruption.
* `C60_evaluate` [pcq] A method other than `rmse` gives no result; an observation type other than `mb` and `snowheight` raises NotImplementedError; otherwise the result has one score per stake, in order, or KeyError is raised because a stake has no measurements.
* `C60_rmse` [pcq] With `rs` the differences of measured and simulated values in the rows that have both: no such row, no score; otherwise the score is `√(Σ rs² / n)`, so its square times `n` is the sum of the squares; it is not negative, and zero exactly if every difference is zero.

### C61 — Generated and converted configuration files contain every key the programs read

*Status:* **partial**. *Modelled from:* `cosipy/config.py:Config.load`, `cosipy/constants.py:Constants.load`, `cosipy/utilities/config_utils.py:UtilitiesConfig`, `cosipy/utilities/aws2cosipy/aws2cosipy.py:create_1D_input, create_2D_input`, `cosipy/utilities/createStatic/create_static_file.py`, `cosipy/utilities/wrf2cosipy/wrf2cosipy.py`, `cosipy/utilities/setup_cosipy/utilities_config.toml`, `convert_config.py`.

*Method:* key lists of the generated files and of every reader as string tables; a reader is a function of the file that raises KeyError on the first missing key; `decide` over the finite tables, lifted to all values.

Main program, constants, create_static, wrf2cosipy and the converter: proved for every file with the generated keys. aws2cosipy: the generated utilities_config.toml lacks LUT_path, so grid mode with Moelg2009 stops with KeyError (C61_refuted); C61_aws_partial shows this is the only case, C61_aws_root that the file at the repository root has no such case. Output prefix: C61_prefix_partial for names of the form prefix_date or prefix.nc; other names are cut (C61_prefix_refuted). Converted utilities_config.toml: all keys with the old values (C61_convert_utilities), but None is written as 0, and radiationModule = 0 stops aws2cosipy (C61_convert_refuted). Which settings the utilities cannot do without: C61_needed, C61_aws_needed.

* `C61_aws_partial` [pcq] For every file with the generated keys (any values, any further entries) and every station table: reading the settings never meets a missing section, and meets a missing key exactly when the grid mode is chosen together with the radiation module Moelg2009 (and the table has a longwave or cloud column, without which the program stops earlier).
* `C61_aws_root` [pcq] With its keys (any values) reading the settings never meets a missing section or key.
* `C61_static_wrf` [pcq] With the generated keys create_static and wrf2cosipy find all their settings.
* `C61_needed` [pq] Create_static and wrf2cosipy need exactly these settings: they find what they read if and only if all are there, whatever reads them.
* `C61_aws_needed` [pq] Preparing data for a point stops unless these settings are there; so does preparing a field, with its own.
* `C61_lapse_needed` [pq] For a point, and for a field with at least one time, the lapse rates of temperature and humidity must be there, and those of precipitation and snowfall if the data have that column.
* `C61_radiation_needed` [pcq] A field is only prepared with one of the three documented radiation modules.
* `C61_refuted` [pq] The sample file with the documented choice Moelg2009 stops with KeyError.
* `C61_config` [pcq] Every configuration file with the shipped keys (any values, in any order, with further tables and keys) loads, and afterwards every setting the program reads is defined.
* `C61_constants` [pcq] Every constants file with the shipped keys loads after such a configuration, and every constant is defined.
* `C61_convert` [pcq] For every old configuration module, file name and output selection the converter produces a file with the shipped keys, so the new program loads it with every setting defined; the values are those of the old module, with 0 for missing settings, and the output prefix is derived from the file name.
* `C61_convert_constants` [pcq] The same for the constants.
* `C61_convert_utilities` [pcq] For all old configuration modules of aws2cosipy and wrf2cosipy the converted file has exactly one value for every setting the sample file has: that of the old module, with 0 for missing settings and `None`.
* `C61_convert_all` [pcq] The converter always writes its three files, and they are those of the theorems above.
* `C61_convert_refuted` [pcq] Aws2cosipy takes `radiationModule = None` as no correction of the radiation; from an old configuration with that value the converter writes 0, with which aws2cosipy always stops in grid mode, where it had not before.
* `C61_prefix_partial` [p] For a name `prefix_date` (the date part without underscore) the converter recovers the prefix exactly, however many underscores it has; for a name without underscore and a single dot it drops the extension.
* `C61_prefix_refuted` [pcq] An underscore outside the date part cuts the name, dots become underscores.

### C62 — The sun is where astronomy puts it

*Status:* **partial**. *Modelled from:* `cosipy/modules/radCor.py:solarFParallel`, `cosipy/modules/radCor.py:correctRadiation`.

*Method:* sun position over ℝ with Mathlib's `arcsin`/`arccos`; identities and monotonicity of cosine.

Elevation, symmetry and poles are proved over the reals. Refuted: longitude, time zone and equation of time cancel (C62_longitude), and the azimuth at noon is positive unless the sun is in the zenith (C62_noon_refuted). C62_corrected, C62_low_sun: how the position enters the corrected radiation.

* `C62_pole` [pcq] At the poles (cosine of the latitude zero) the function raises ZeroDivisionError.
* `C62_elevation_partial` [pcq] For every latitude but the poles, every day and hour, the position is computed; elevation and zenith angle add up to a right angle, and the sine of the elevation is that of the sun at the declination of the day and an hour angle of 15° per hour from twelve o'clock.
* `C62_noon_highest` [pcq] The sun is never higher than at twelve o'clock.
* `C62_mirror` [pcq] Hours before and after twelve give the same elevation and opposite azimuths.
* `C62_longitude` [pcq] Longitude and time zone have no influence: two places on the same latitude see the sun at the same position at every hour, wherever they are, because the corrections cancel.
* `C62_site` [pcq] Hence the corrected radiation does not depend on them either.
* `C62_noon_refuted` [pcq] At twelve o'clock the azimuth must be 0 (south), by the function's own convention of negative mornings.
* `C62_sign` [pcq] The convention the previous theorem refers to: the function counts azimuths negative before and positive after twelve o'clock.
* `C62_corrected` [pcq] What the corrected radiation is made of: the position found above enters the slope correction of C56 (zenith angle and azimuth in their places), for every hour but that of the sun on the horizon.
* `C62_low_sun` [pcq] When the sun stands lower than the threshold allows, at the true elevation for the hour angle, slope and aspect do not change the radiation.

### C63 — Radiation look-up tables are filled and read consistently

*Status:* **partial**. *Modelled from:* `cosipy/modules/radCor.py:LUTshad`, `cosipy/modules/radCor.py:LUTsvf`, `cosipy/modules/radCor.py:calcRad`, `cosipy/modules/radCor.py:solpars`.

*Method:* index arithmetic of the look-up table by `omega`/Nat division lemmas; sky-view integral as a finite sum bounded termwise; polar failure from `arccos` domain.

Lookup is right for steps that divide the day (C63_lookup_partial); refuted for 5 and 9 hours; hour angles agree only for hourly steps; the sky view factor is the share of sampled points that are seen (C63_svf_share); ValueError beyond 66.56 degrees latitude (C63_polar_refuted), none up to 66.46 degrees (C63_solpars_ok); the solar parameters of every day are given exactly (C63_parameters).

* `C63_lookup_partial` [pcq] The step is `k` hours and `k` divides the day.
* `C63_write_injective` [pcq] No entry is written twice: different days or steps have different positions, all inside the table.
* `C63_short_step` [p] A step under one hour raises ZeroDivisionError before anything is filled.
* `C63_five_hours_refuted` [pcq] With a step of five hours the last entry of the year lies outside the table: IndexError.
* `C63_nine_hours_refuted` [pcq] With a step of nine hours midnight of the second day reads the entry of the evening of the first day.
* `C63_hour_angle` [pcq] The angle used for the radiation and the one the shading was computed for differ by 7.5° times (step in hours − 1).
* `C63_hour_angle_iff` [pcq] They agree exactly for a step of one hour.
* `C63_hour_angle_shipped` [pcq] With the step of the shipped configuration (three hours) the shading is that of a sun 15° further.
* `C63_svf_range` [pcq] The factor lies between 0 and 1 for every slope, aspect and shading.
* `C63_svf_shaded` [pcq] More shading never increases the factor of a direction.
* `C63_svf_flat` [pcq] On flat ground without shading the whole sky is seen.
* `C63_svf_share` [pcq] The sky is sampled in 36 directions, every ten degrees, and at 44 heights, every two degrees.
* `C63_polar_refuted` [pcq] From 66.56° on, north or south, the solar parameters cannot be computed: ValueError.
* `C63_solpars_ok` [pcq] Up to 66.46° (π/2 − 0.4108) the parameters are computed for every day.
* `C63_parameters` [pcq] The entry of every day of the year, counted from 1, holds a quarter degree for each minute of the equation of time of that day and the nearness of the sun; day 366 repeats day 365.

### C64 — Aggregated station data keep the recorded totals

*Status:* **partial**. *Modelled from:* `cosipy/utilities/aws2cosipy/aws2cosipy.py:create_1D_input`, `cosipy/utilities/aws2cosipy/aws2cosipy.py:nansumwrapper`, `cosipy/utilities/aws2cosipy/aws2cosipy.py:set_order_and_type`.

*Method:* records grouped by hour as lists; sums over a partition; forward fill as a recursive function.

Intervals, totals and means are proved for every file and, in the distributed case, every aggregation step. Refuted: gap filling repeats precipitation (C64_gap_refuted) and the 660 hPa fallback is never reached (C64_pressure_refuted).

* `C64_bins` [pcq] For every positive step: each record lies in exactly one of the intervals; the intervals are in order, one after the other without gaps, and the first and the last of them contain records.
* `C64_clock` [pq] A step that divides the day gives intervals that start at multiples of the step after midnight, whenever the data begin: full hours for hourly data.
* `C64_total_partial` [pcq] Summing the records of every interval, as both programs do for precipitation and snowfall, keeps the total of the series, whatever the step and the times are (also unordered or repeated) and wherever numbers are missing.
* `C64_fields` [pcq] The frame distributed over a glacier holds the precipitation and the snowfall of the selected period, whatever the configured aggregation step: the totals before and after aggregation agree.
* `C64_total_nogap` [pcq] Without gaps nothing is filled, so the point program keeps the totals as well.
* `C64_gap` [pq] A gap of `n` records after the value `v` adds `n` times `v` to the total.
* `C64_gap_ge` [pcq] Filling never loses water: with nonnegative precipitation the total after filling is at least the total before.
* `C64_mean` [pcq] If all numbers of an hour lie in an interval, so does the mean.
* `C64_pressure_refuted` [pq] A file without pressure, or with a column of NaN only, is not given 660 hPa: the program stops with KeyError, for every such file.
* `C64_pressure_measured` [pq] Whatever the point program accepts had a pressure of its own: the written pressure comes from measured numbers.
* `C64_precipitation` [p] A file without a precipitation column is rejected with KeyError, even if it has snowfall.
* `C64_gap_refuted` [pcq] 5 mm were recorded; 15 mm are written.

### C65 — A simulation can be continued from its restart file

*Status:* **partial**. *Modelled from:* `COSIPY.py:main`, `cosipy/cpkernel/io.py:IOClass.create_data_file, init_data_dataset, load_restart`.

*Method:* the whole of `main` as a function of settings and disk; case analysis over the forms of the time settings; composition with C42/C44.

C65_refuted: with restart=true main fails for every form of the time settings, every input and disk (quoted times: AttributeError strftime before anything runs, C65_stops_early; unquoted: TypeError when naming the output after the whole simulation, C65_stops_late). C65_continue_partial: the selection itself is right: both runs together process every record once, in order, with the saved state. C65_plain: a run without restart writes the restart file of its last record. C65_dates: unquoted dates mean their midnight.

* `C65_refuted` [pcq] Whatever the settings, the input, the stored files and the simulation, a run with `restart = true` ends with an error and writes nothing.
* `C65_stops_early` [pcq] AttributeError before the restart file is looked for.
* `C65_stops_late` [pcq] The whole simulation runs, then the name of the output file cannot be formed (TypeError) and nothing is written.
* `C65_continue_partial` [pcq] A run over some period ends at the record `last`; a second run started with `time_start = last` (unquoted) finds the restart file the first one wrote.
* `C65_plain` [pcq] With quoted, well-formed times and records in the period, the program simulates and writes; so `C65_refuted` is not an artefact of the model.
* `C65_outside` [pq] If the wanted period begins after the last record or ends before the first one, a restarted run stops with an exit, a fresh one with an IndexError; neither simulates anything.
* `C65_dates` [pcq] A run with unquoted dates in its settings does in every respect what it does with the midnights of these dates.

### C66 — Runs with different settings do not destroy each other's files

*Status:* **partial**. *Modelled from:* `COSIPY.py:main`, `COSIPY.py:get_timestamp_label, get_output_path`.

*Method:* file names as strings; frame theorem over the file-system function; injectivity of formatting.

C66_frame: a run changes only its own two files. C66_output_partial: result names agree iff prefix and first ten characters (dates) of both times agree. C66_hours_refuted: two halves of one day share a result file. C66_restart_refuted: restart files carry no prefix, so another glacier with the same end time replaces them.

* `C66_frame` [pcq] A successful run changes one result file, whose name is made of the prefix and the two dates, and one restart file, whose name is the time of its last step; everything else stays.
* `C66_output_partial` [pcq] For times that begin with a date, two runs write the same result file exactly when prefix, start date and end date coincide.
* `C66_hours_refuted` [pcq] Two consecutive runs within a day write the same result file.
* `C66_restart_refuted` [pcq] A run of another glacier (different prefix) that ends at the same time replaces the restart file of the first, while both result files survive.

### C67 — Simulating tiles gives the same results as simulating the whole domain

*Status:* **partial**. *Modelled from:* `cosipy/cpkernel/io.py:IOClass.init_data_dataset`, `COSIPY.py:run_cosipy`.

*Method:* tile selection as index slices; the scheduler theorem of C45 applied to the sub-domain.

C67_cells, C67_cover: selected rows/columns are exactly the requested ones and consecutive tiles cover all once. C67_same_partial: a tile cell has the same stored value as in the full run for every variable (non-restart, non-negative bounds). C67_names_refuted: dimension names other than lat/lon (south_north/west_east with WRF) always fail.

* `C67_cells` [pcq] For non-negative bounds the selected positions are those from `start` to `stop - 1` that exist, in order.
* `C67_cover` [pq] Tiles given by ascending cut points from 0 to at least the size of the domain select every position exactly once, in order.
* `C67_same_partial` [pcq] Suppose the whole domain and the tile are both simulated, with a simulation of a cell that depends on the data of the cell only (the position is just passed through).
* `C67_names_refuted` [p] With `northing`, `easting` set to the names in the file, tiles only work if these are lat and lon (south_north and west_east for WRF); the settings are not looked at.

### C68 — Stakes are evaluated in the nearest grid cell

*Status:* **partial**. *Modelled from:* `COSIPY.py:transform_coordinates`, `COSIPY.py:run_cosipy`.

*Method:* argmin over all cells; great-circle distance over ℝ; periodicity of sine and cosine.

C68_nearest, C68_once, C68_wrap, C68_injective and C68_exact_partial (away from the poles, one longitude convention among cells). C68_far_refuted: stakes anywhere on the globe are assigned to some cell of the domain.

* `C68_nearest` [pcq] In a non-empty domain the cell of a stake is a cell of the domain, and its distance to the stake is the least of all cells.
* `C68_wrap` [pcq] Longitudes that differ by a full turn give the same point.
* `C68_injective` [pcq] Away from the poles, and with longitudes in one turn, different coordinates are different points.
* `C68_exact_partial` [pcq] A stake whose coordinates are those of a cell (no poles, one convention of longitudes) is put into a cell with exactly these coordinates.
* `C68_once` [pcq] The stakes handed to the cells of the domain are all stakes whose cell lies in it, each once: for every list of stakes with their cells, the lists of the cells put together are a permutation of all stakes.
* `C68_far_refuted` [pcq] In a domain of one cell every stake, wherever it is, is evaluated in that cell.

### C69 — The result and restart files hold what the simulations computed

*Status:* **proved**. *Modelled from:* `cosipy/cpkernel/cosipy_core.py:cosipy_core`, `COSIPY.py:run_cosipy`, `cosipy/cpkernel/io.py:IOClass.copy_local_to_global`, `cosipy/cpkernel/io.py:IOClass.write_results_to_file`, `cosipy/cpkernel/io.py:IOClass.write_restart_to_file`.

*Method:* composition: kernel arrays (C48) + scheduler (C45) + writer (C46/C47); invariant 'array at (t,y,x) = value of that step'.

End to end: `C69_simulated` (one simulation per glacier cell, independent of the schedule), `C69_series`, `C69_layers`, `C69_restart`. The meaning of every name is spelled out in Spec/Output.lean. Input variables copied to the result file are treated in C47/C48.

* `C69_simulated` [pcq] If the program finishes, the simulation of every glacier cell has gone through, with the data of that cell and one step per time stamp; there is only one such simulation, whatever the schedule.
* `C69_series` [pcq] Every wanted variable over time and space holds, at every glacier cell and time, the quantity its name says of that step of the simulation of that cell.
* `C69_layers` [pcq] Every wanted layer variable holds, at every glacier cell and time, the quantity its name says of the layers after that step, from the surface down; below the lowest layer there is only the fill value.
* `C69_recorded` [pcq] Every step writes one entry of every array that was created for the cell, and of no other: the arrays over time always, those over the layers if they are wanted.
* `C69_restart` [pcq] Every variable of the restart file holds, at every glacier cell, the quantity its name says of the column of that cell after the last step.

### C70 — The numbers in a result file are consistent with each other and physically possible

*Status:* **proved**. *Modelled from:* `cosipy/cpkernel/cosipy_core.py:cosipy_core`, `cosipy/cpkernel/io.py:IOClass`, `cosipy/modules/surfaceTemperature.py`, `cosipy/modules/albedo.py`, `cosipy/modules/roughness.py`, `cosipy/cpkernel/grid.py:Grid`.

*Method:* C33/C34/C59 transported along C69 to the arrays in the file.

Values read off the result file of a finished run of the whole program. Layers: `C70_layers` assumes the physical ranges hold at the visited columns; `C70_layers_constant` and `C70_layers_empirical` discharge this for these densification methods, and `C70_layers_general` for every method provided all recorded layer heights are positive (compaction can make them negative: C59). Albedo for Oerlemans98 with constants in the usual order. Solver: respects its lower bound.

* `C70_balance` [pcq] Total is surface plus internal; internal is refreezing minus subsurface melt; surface is snowfall minus melt plus the vapour terms.
* `C70_signs` [pcq] Sublimation and evaporation remove mass, deposition and condensation add it; below the melting point there is no evaporation or condensation, at the melting point no sublimation or deposition.
* `C70_energy` [pcq] The vapour terms carry the latent heat flux; the melt is paid for by the melt energy, which is never negative.
* `C70_temperature` [pcq] 
* `C70_heights` [pcq] `LAYERS` is a whole number `m`; the first `m` entries of `LAYER_HEIGHT` add up to `TOTALHEIGHT`, all further entries are missing values; some first entries add up to `SNOWHEIGHT`.
* `C70_layers` [pcq] As long as the columns of the cell's simulation are physical (see C59 and the two theorems below): heights are positive, temperatures between `tlo` and the melting point, liquid water is not negative, ice fractions positive, densities at least that of air, the cold content is not negative and vanishes exactly at the melting point.
* `C70_mixture` [pcq] In every layer, ice fraction, water content and porosity add up to one; the density is that of the mixture of ice, water and the air in the pores.
* `C70_start` [pcq] A column built from scratch is physical if the configured initial densities are at least that of air and the configured bottom temperature and the first air temperature are at least `tlo`.
* `C70_layers_constant` [pcq] With the `constant` densification the premise of `C70_layers` holds for physical start columns and air temperatures of at least `tlo`.
* `C70_roughness` [pcq] The recorded roughness length is that of ice or lies between those of fresh snow and firn.
* `C70_layers_empirical` [pcq] For time steps below about nine hours.
* `C70_layers_general` [pcq] For every densification method the premise of `C70_layers` can be read off the file: it holds if all recorded layer heights of the cell are positive (compaction can make them negative, C59).
* `C70_albedo` [pcq] With the Oerlemans parameterisation the recorded albedo lies between those of ice and fresh snow, as long as the columns of the cell's simulation are physical.

### C71 — An interrupted run leaves the data directory consistent

*Status:* **proved**. *Modelled from:* `COSIPY.py:main`, `COSIPY.py:create_data`, `COSIPY.py:run_cosipy`.

*Method:* sequence of file events of a run; every prefix of it considered.

Crash states are those between file openings and completed writes; the stake CSV files, log files and Slurm scratch files are not included. C71_old_result_lost shows the window in which the previous result of the same name is already gone.

* `C71_exception` [pcq] A run that ends with an exception (in any cell, in reading, or in naming the result) has written no result and no restart file.
* `C71_others` [pcq] Whenever a run is interrupted, every other result and restart file is as before, where the result name is the configured one and the restart name that of the last time step.
* `C71_order` [pcq] A restart file is touched only after the result file of the same run is complete, and a file that can be read is either the one from before or the complete new one.
* `C71_rerun` [pcq] Running again after an interruption at any point of a run from scratch ends with exactly the files the uninterrupted run would have left.
* `C71_old_result_lost` [pcq] Whatever was stored under the name of the result is unreadable while the new result is being written: an interruption then leaves neither.
* `C71_one_cell` [pcq] If the simulation of one glacier cell ends with an exception, the simulation of the domain does, in whatever order the cells finish; so by `C71_exception` nothing is written for any cell.

### C72 — Calling the model step by step from an atmospheric model is one simulation

*Status:* **proved**. *Modelled from:* `cosipy/cpkernel/cosipy_core.py:cosipy_core`, `cosipy/cpkernel/init.py:load_snowpack`, `cosipy/constants.py:Constants.set_correct_config`.

*Method:* return tuple fed back to `load_snowpack`; C42 round trip and C44 erasure, induction over the calls.

The driver is not part of the repository; it is assumed to pass back the returned entries under the names load_snowpack reads. The albedo scheme is the one coupled mode sets (C49). Stake evaluation in coupled mode is not modelled (it raises).

* `C72_first_step` [pcq] A coupled call simulates the first time step of its data and nothing else.
* `C72_chain` [pcq] A sequence of coupled calls, each getting back the column the last one returned, gives at every call the results and the column of one uninterrupted simulation over the first time steps of the calls, with the settings (time step, layers, measurement height, slope) of each call; or raises the same exception.
* `C72_values` [pcq] The tuple of a coupled call has the layout of the standalone tuple: at the position of an output variable it holds the value of that variable at the end of the step.
* `C72_empty` [pcq] Without a time step a coupled call returns nothing.

### C73 — The reported surface energy balance closes

*Status:* **partial**. *Modelled from:* `cosipy/modules/surfaceTemperature.py:update_surface_temperature`, `cosipy/modules/surfaceTemperature.py:eb_fluxes`, `cosipy/modules/surfaceTemperature.py:eb_optim`, `cosipy/cpkernel/cosipy_core.py:cosipy_core`.

*Method:* surface balance as a function of the temperature (Spec/Energy); order arguments over a field, monotone analysis over ℝ; exact minimiser as hypothesis; concrete column.

The fluxes of every step are those of one balance at the reported temperature and the melt energy is its positive part (C73_fluxes). Closure up to the solver tolerance is proved for balanced solver answers and a balance that does not rise (C73_closed_partial); the latter is proved for calm air in both schemes and for surfaces warmer than the air (C73_calm, C73_unstable). Refuted in general: the fall-back minimises the signed residual, so it answers the melting point; on a calm cold night with a column below 220 K the surface is reported at the melting point and the missing energy is dropped (C73_cold_night, with a concrete column).

* `C73_fluxes` [pcq] The recorded fluxes of a step are those of one energy balance at the recorded surface temperature, taken over the column at the time of the update and the forcing of the step; the recorded melt energy is what is left of it, if positive.
* `C73_closed_partial` [pcq] Full statement: in every step the recorded fluxes sum up to the melt energy, up to the solver's tolerance.
* `C73_fallback` [pcq] If the first attempt fails and the balance falls with rising temperature, an exact minimiser answers the upper bound of its interval: the recorded surface temperature is the melting point, however cold it is.
* `C73_cold` [pcq] With the Newton method, a root finder that answers only roots and an exact minimiser: if the balance falls with rising temperature and is negative at 220 K already, every surface temperature that is returned is the melting point, and the recorded fluxes sum to less than zero: that energy is dropped.
* `C73_calm` [pcq] Without wind the balance falls strictly with rising surface temperature, in both stability schemes: there is at most one balanced temperature, and the hypotheses of the theorems above hold.
* `C73_unstable` [pcq] Where the surface is at least as warm as the air, and below the melting point, the balance falls strictly with rising surface temperature in the Richardson scheme.
* `C73_cold_night` [pcq] Calm air, no rain, a column colder than 220 K below the surface, and less radiation received than a surface of 220 K emits: whatever the column and the solvers' internals, the surface is reported at the melting point, and the reported fluxes sum to less than zero.

### C74 — The Monin-Obukhov scheme carries heat and vapour along their gradients and is damped in stable air

*Status:* **partial**. *Modelled from:* `cosipy/modules/surfaceTemperature.py:eb_fluxes`, `cosipy/modules/surfaceTemperature.py:phi_m`, `cosipy/modules/surfaceTemperature.py:phi_tq`, `cosipy/modules/surfaceTemperature.py:ustar`, `cosipy/modules/surfaceTemperature.py:MO`.

*Method:* the pass of the iteration as a relation between successive states; invariant 'coefficients not negative' / 'Obukhov length not negative' over all passes; real analysis for the stability functions.

Directions (C74_direction), damping over surfaces not warmer than the air (C74_stable) and the shape of the stability functions are proved for every number of passes. The friction velocity is proved not negative in stable and neutral air (C74_friction_partial) and refuted in strongly unstable air (C74_friction_refuted): the stability correction exceeds the logarithm.

* `C74_stable_function` [pcq] It is never positive and falls with height, in the standalone and in the coupled form.
* `C74_unstable_function` [pcq] Between two heights it changes by no more than the logarithm of their ratio.
* `C74_direction` [pcq] In the Monin-Obukhov scheme the sensible heat flux is directed along the temperature difference and the latent heat flux along the difference of mixing ratios, for every number of passes.
* `C74_friction_partial` [pcq] Full statement: the friction velocity is not negative.
* `C74_stable` [pcq] Over a surface that is not warmer than the air the sensible heat flux is at most the one in neutral stratification, the latent heat flux is at most the neutral one in magnitude, and the reported Obukhov length is not negative.
* `C74_friction_refuted` [pcq] With two metres measurement height, one millimetre roughness length and any wind, the friction velocity is negative at an Obukhov length of minus a hundredth of a millimetre.

### C75 — Vapour is exchanged in the right direction

*Status:* **proved**. *Modelled from:* `cosipy/modules/surfaceTemperature.py:method_EW_Sonntag`, `cosipy/modules/surfaceTemperature.py:eb_fluxes`, `cosipy/cpkernel/cosipy_core.py:cosipy_core`.

*Method:* monotone and continuous over ℝ across the two branches; composition with C35/C74 and the vapour split of the step.

Over the real numbers, for wind, humidity, pressure, roughness and slope in their physical ranges (structure SaneStep). Wet-bulb and supersaturated air colder than the surface are outside the two statements.

* `C75_saturation` [pcq] The saturation vapour pressure is 6.112 hPa at the triple point, rises strictly with temperature and has no jump.
* `C75_latent` [pcq] Towards a surface at least as warm as the air, air that is not supersaturated carries no latent heat; away from a surface at most as warm as the air, saturated air carries none; at equal temperatures and saturation there is no exchange.
* `C75_no_uptake` [pcq] In a step whose surface is at least as warm as the air, and with a humidity of at most 100 per cent, nothing is deposited or condensed, and the surface gets neither sensible nor latent heat.
* `C75_no_loss` [pcq] In a step whose surface is at most as warm as saturated air, nothing sublimates or evaporates, and the surface loses neither sensible nor latent heat to the air.

### C76 — A time step on a sound column ends, in a result or for one of five stated reasons

*Status:* **proved**. *Modelled from:* `cosipy/cpkernel/cosipy_core.py:cosipy_core`, `cosipy/cpkernel/grid.py:Grid`, `cosipy/modules/heatEquation.py:solveHeatEquation`, `cosipy/modules/surfaceTemperature.py:update_surface_temperature`, `cosipy/modules/surfaceTemperature.py:interp_subT`, `cosipy/modules/densification.py:densification`.

*Method:* error sets: `Safe x E` = 'x raises only if E'; rules for bind/if/loops; one lemma per stage, with the layer bounds carried by the stage invariants; termination of each loop from Lemmas/Fuel; induction over the forcing sequence; concrete quiet night.

Exact real arithmetic. Hypotheses: Ready (settings, solvers that end and respect the lower bound), Supplied (forcing), GoodLayer (layers). The result of the step does not depend on the loop bound of the model from some bound on. C76_quiet and C76_quiet_outcome run a concrete step through all of it.

* `C76_step` [pcq] From some fuel on, the step always ends in the same way; if that is an exception, one of the reasons of `StepFails` holds.
* `C76_completes` [pcq] If none of the reasons holds, the step completes.
* `C76_run` [pcq] For a forcing sequence of any length: from some fuel on the simulation always completes with the same result, or it always stops with the same exception at the same step, and there either the column reached has a layer that is not good, or one of the reasons of `StepFails` holds.
* `C76_run_constant` [pcq] Then the columns stay good, so the simulation completes, or stops at a step for one of the reasons of `StepFails`.
* `C76_quiet` [pcq] Non-vacuity: the hypotheses of all four theorems hold for a quiet night with the shipped physical constants, no reason for failure holds, and the step completes.
* `C76_quiet_outcome` [pcq] The quiet step in figures: it also meets the hypotheses of `C75_no_uptake` and `C75_no_loss` (surface and air are both at 270 K), so that by these theorems no vapour is exchanged and no sensible or latent heat.

### C77 — Modelled shortwave radiation is physically bounded and belongs to its cell

*Status:* **partial**. *Modelled from:* `cosipy/modules/radCor.py:calcRad`, `cosipy/modules/radCor.py:solpars`, `cosipy/utilities/aws2cosipy/aws2cosipy.py:create_2D_input`.

*Method:* sun and slope as unit vectors in a small specification (Spec/Sun); inner products = the cosines of the code; exponentials and real powers bounded termwise; two flips cancel by `omega`.

Proved over the reals: sun and slope geometry against a vector specification, bounds for pressures up to 820 hPa, night (with gaps too, C77_night_gaps), shade, level cells, exact condition for the fall with clouds; rows and tables for any arithmetic. Violated: the radiation jumps at cloud fraction 0 (C77_jump_refuted) and the Rayleigh transmissivity exceeds 1 near the horizon at sea level (C77_rayleigh_refuted), so the bounds carry the hypothesis on the pressure.

* `C77_geometry` [pcq] The factor for the beam on a slope is the scalar product of the directions of the sun and of the normal of the slope; it is at most 1, and for level ground it is the sine of the sun's elevation.
* `C77_clear_sky` [pcq] On level ground under a clear sky the direct and the diffuse part are not negative and together at most what arrives at the top of the atmosphere.
* `C77_night` [pcq] With the sun at or below an elevation of sine 0.01 every glacier cell gets 0, and no value is given elsewhere.
* `C77_night_gaps` [pcq] With gaps in the data: at night a glacier cell gets 0 if its elevation is known, also at sea level, whatever the other data of the cell.
* `C77_range` [pcq] By day every cell with pressure up to 820 hPa gets a value that is not negative and at most what the sun sends onto its slope and onto level ground together.
* `C77_shade` [pcq] A cell that the table says is shaded, or whose slope is turned away from the sun, gets the diffuse part only: its value does not depend on slope and aspect.
* `C77_level` [pcq] A level cell with a free view and not shaded gets, under a clear sky, the clear-sky global radiation; under an overcast sky 35 per cent of it.
* `C77_clouds` [pcq] Between two positive cloud fractions the radiation of a cell does not rise with clouds exactly if its direct part is at least 0.304 of the level clear-sky radiation seen by the cell.
* `C77_jump_refuted` [pcq] The radiation is not continuous in the cloud fraction at 0: at the equator with the sun in the zenith over a level cell without clouds, every positive cloud fraction, however small, takes off at least 2 per cent of the solar constant reduced by the permanent gases.
* `C77_rayleigh_refuted` [pcq] At sea level with the sun just above the horizon (sine 1/99) the transmissivity for Rayleigh scattering exceeds 1: the atmosphere amplifies.
* `C77_rows` [pcq] In the domain file every cell has the radiation computed from its own temperature, pressure, humidity, clouds, elevation, slope and aspect, although the arrays are turned upside down twice.
* `C77_svf_rows` [pq] The table of sky-view factors, built upside down, has at that row the factor of the slope and aspect of the cell.
* `C77_domain` [pcq] In a domain with pressures up to 820 hPa every glacier cell gets, at every time, a value between 0 and 2834 W/m2 (twice the solar constant at perihelion): beam on the slope plus diffuse part.

### C78 — Topographic shading follows the line of sight

*Status:* **partial**. *Modelled from:* `cosipy/modules/radCor.py:relshad`, `cosipy/modules/radCor.py:LUTshad`, `cosipy/modules/radCor.py:LUTsvf`, `cosipy/modules/radCor.py:haversine`.

*Method:* `relshad` reduced to one statement per cell (profile = points and distances independent of the terrain, lit = maximum of arctangents below the sun); order arguments; explicit equally spaced grids with the square root of the diagonal bounded; sun direction against Spec/Sun.

Exact real arithmetic. Proved: line of sight, monotone in sun and terrain, shift, summits, plains, which cells get a value, return on equally spaced grids with latitudes from north to south if the glacier is two cells away from the border, direction for hour angles up to 180 degrees. Violated: latitudes from south to north raise (C78_order_refuted), cells next to the border can raise (C78_border_refuted), the sun is mirrored beyond 180 degrees (C78_sun_mirrored, C78_sun_refuted); border cells get no value (C78_where).

* `C78_sight_line` [pcq] For every direction there is one list of terrain points per cell, independent of the elevations and of the height of the sun; a cell is lit exactly if none of them rises above the line of sight to the sun.
* `C78_where` [pcq] Exactly the glacier cells that are not on the border get a value.
* `C78_sun_height` [pcq] A cell lit by a low sun is lit by a higher sun in the same direction.
* `C78_terrain` [pcq] Lowering the other terrain, or raising the cell itself, never puts a lit cell into the shade.
* `C78_reference` [pcq] A constant added to all elevations changes nothing.
* `C78_summit` [pcq] A cell that is at least as high as all terrain is lit while the sun is above the horizon.
* `C78_returns` [pcq] On a grid with equal spacing and latitudes from north to south the shading is computed for every terrain, every height and direction of the sun, if the glacier cells stay two cells away from the border.
* `C78_order_refuted` [pcq] If the latitudes that `relshad` gets run from south to north (the domain file from north to south, since the rows are turned around), the shading of any glacier cell raises ValueError.
* `C78_border_refuted` [pcq] Four by four cells, the sun in the east: a glacier cell next to the eastern border makes the computation raise, because the second point of its profile is already outside.
* `C78_sun_partial` [pcq] The elevation and compass direction computed for the shading table are those of the sun, except in the zenith and at the poles.
* `C78_sun_mirrored` [pcq] Beyond 180 degrees (the first hours of the day if the clock is ahead of the sun) the direction is mirrored: an evening sun in the west is put in the east.
* `C78_sun_refuted` [pcq] 60 degrees north at the June solstice, clock 52.5 degrees ahead of the sun: at hour 0 the sun is above the cut-off in the west, and the table is computed with a sun in the east.
* `C78_svf_plain` [pcq] On a level plain every glacier cell sees the whole sky, if the shading is computed at all.

### C79 — Merging a snow layer into the glacier keeps the column's content

*Status:* **partial**. *Modelled from:* `cosipy/cpkernel/grid.py:Grid.merge_snow_with_glacier`.

*Method:* exact effect on the list of layers, change of the water equivalent as an identity in the field; concrete columns for the violations.

Effect and exact mass change for every column (C79_effect, C79_weq); conserved for dry pure ice below (C79_weq_partial). Violated: liquid water of the ice is lost (C79_water_refuted), mass changes over porous ice (C79_firn_refuted), the temperature of the snow is dropped (C79_heat_refuted). The function has no caller in the repository.

* `C79_effect` [pcq] Snow over ice: the snow layer disappears, the ice layer is thickened by the ice equivalent of the snow and loses its liquid water; nothing else changes.
* `C79_weq` [pcq] The exact change of the water equivalent of the column.
* `C79_weq_partial` [pcq] Then the water equivalent of the column is kept.
* `C79_water_refuted` [pcq] Water stored in the ice below disappears.
* `C79_firn_refuted` [pcq] Over dry ice with pores the mass of the column changes.
* `C79_heat_refuted` [pcq] The temperature of the snow has no influence: snow of 265 K on ice of 270 K gives ice of 270 K.

### C80 — Incoming longwave radiation from clouds and humidity

*Status:* **proved**. *Modelled from:* `cosipy/modules/surfaceTemperature.py:eb_fluxes`, `cosipy/cpkernel/io.py:check_input_data`.

*Method:* closed form over ℝ; convex combination of two emissivities; eighth root and saturation pressure bounded with explicit bounds for the exponential.

Over the reals. C80_measured holds for any arithmetic. C80_percent states what happens outside the stated range (the program only prints a warning).

* `C80_measured` [p] A measured value is used whatever the cloud fraction is; without value and without clouds the computation raises.
* `C80_clouds` [pcq] For cloud fractions between 0 and 1 the value lies between the clear-sky and the overcast value, is exactly these for 0 and 1, and rises with the cloud fraction while the clear sky emits less than the overcast one.
* `C80_humidity` [pcq] More vapour in the same air never lowers the value.
* `C80_range` [pcq] In every flux computation with air between 200 K and 313.16 K, humidity between 0 and 100 % and cloud fraction between 0 and 1 the radiation from clouds is between 0.23 and 0.984 of black-body radiation of the air.
* `C80_percent` [pcq] Outside the stated range nothing is checked: a cloud cover of 100 (percent instead of a fraction) gives more than 300 times black-body radiation.

### C81 — Signs survive floating-point rounding

*Status:* **proved**. *Modelled from:* `cosipy/cpkernel/cosipy_core.py:cosipy_core`, `cosipy/cpkernel/grid.py:Grid`, `cosipy/cpkernel/node.py:Node`, `cosipy/modules/percolation.py`, `cosipy/modules/refreezing.py`, `cosipy/modules/penetratingRadiation.py`, `cosipy/modules/densification.py`.

*Method:* laws of rounded arithmetic as a class; sign invariant through every stage for any such arithmetic, each subtraction guarded by a comparison of the same numbers; binary64 (nearest even, subnormals) proved monotone, idempotent, odd and accurate; runs computed in the kernel in double precision.

C81_step for one step and all its stages, C81_run for runs (assuming that compaction leaves no negative height, which C59_boone_refuted shows is needed), C81_run_constant without that assumption, C81_binary64 for double precision with the shipped constants. Overflow, infinities and NaN are not covered. Upper bounds (temperature of inner layers at the melting point, ice fraction at 1) and conservation are not claimed under rounding.

* `C81_step` [pcq] In rounded arithmetic, from a column without negative contents: the stored amounts have the right signs, and no column between the stages of the step, up to densification, has a negative height, ice fraction or water content.
* `C81_run` [pcq] In rounded arithmetic, if compaction never turns a height negative in the run, then no layer of any column of the run ever has a negative ice fraction or water content, and all stored amounts of the run have the right sign.
* `C81_run_constant` [pcq] Nothing has to be assumed about compaction.
* `C81_binary64` [pcq] With the shipped constants, in IEEE 754 binary64 arithmetic without overflow and with correctly rounded elementary functions (over the real numbers the condition `hx` holds: `expSigns_real`): if compaction never turns a height negative in a run, all its columns and stored amounts have the right signs.

### C82 — Heat conduction sub-stepping in double precision

*Status:* **proved**. *Modelled from:* `cosipy/modules/heatEquation.py:solveHeatEquation`.

*Method:* binary rounding: Sterbenz lemma, exact doubling, relative error of sums including subnormals (Lemmas/Binary); loop invariant 'nothing, a full sub-step or all done'; progress by half a sub-step; a power of two below `dt` that absorbs the sub-step for the divergence.

Exactness for any positive stability bound; the criterion 2^(1-p) (ends) and 2^-(p+3) (never ends) leaves a factor 16 between. The divergence needs layers below a nanometre, which remeshing does not leave in the snow. Overflow is not modelled.

* `C82_integrates` [pcq] In binary floating point of any precision from single on, with gradual underflow: if the stability bound of the column is positive, the new temperatures are those reached by positive sub-steps, none above the bound, whose sum, rounded after each addition, is exactly `dt`.
* `C82_terminates` [pcq] The solve returns if the stability bound is at least `2^(1-p)` of `dt` (`p + 1` bits; `2^-51 dt` in double precision).
* `C82_diverges` [pcq] If the stability bound is at most `2^-(p+3)` of `dt` (`2^-55 dt` in double precision) the solve never returns, however long one waits: the running sum gets stuck below `dt`.

### C83 — Rounding errors of the balances

*Status:* **proved**. *Modelled from:* `cosipy/cpkernel/cosipy_core.py:cosipy_core`, `cosipy/cpkernel/grid.py:Grid.get_total_height`.

*Method:* predicate 'approximate up to i roundings relative to S', closed under rounded sums and folds (Lemmas/FloatErr); step equations of Lemmas/Frame; Bernoulli for the linear bound.

Errors of the terms themselves (melt, refreezing, ...) are not bounded, only those of their sums.

* `C83_step` [pcq] The recorded mass balance is the exact balance of the recorded quantities up to five roundings.
* `C83_cumulative` [pcq] After a run of `n` steps started at zero, the accumulated balance is the exact sum of all recorded snowfall, melt, vapour fluxes, refreezing and subsurface melt up to `n + 5` roundings.
* `C83_cumulative_linear` [pcq] The same, with the number of roundings spelled out.
* `C83_height` [pcq] The total height is the exact sum of the layer heights up to as many roundings as there are layers.
* `C83_century` [pcq] The accumulated balance is off by less than `2e-10` of the turnover.

### C84 — Remeshing terminates in double precision

*Status:* **proved**. *Modelled from:* `cosipy/cpkernel/grid.py:Grid.log_profile`, `cosipy/cpkernel/grid.py:Grid.update_grid`.

*Method:* measure: layers ahead + half first layers in the remaining height; a rounded subtraction drops at least half a layer; generic over arithmetics with a progress measure.

The adaptive method ends in any arithmetic (C07). The glacier height is the one the program computes between the two loops.

* `C84_snow_loop` [pcq] The loop over the snow layers ends whatever the column, if the first layer is not negligible beside the height still to be distributed.
* `C84_ice_loop` [pcq] The same for the loop over the glacier layers, from any state the first loop can leave.
* `C84_log` [pcq] Logarithmic remeshing terminates in binary floating point, if the first layer is not negligible beside the snow height it starts with and the glacier height `total - snow` it computes half way.

### C85 — The result file describes itself

*Status:* **partial**. *Modelled from:* `cosipy/cpkernel/io.py:IOClass.get_result_metadata`, `cosipy/cpkernel/io.py:IOClass.init_result_dataset`, `cosipy/cpkernel/io.py:IOClass.write_results_to_file`.

*Method:* attributes as a table of sources evaluated against the two stores; determinacy by induction over the table; labels by tables checked once, membership lemmas for every store; bisimulation with the unlabelled model of C42/C70.

Refuted: thermal_conductivity_method, sfc_temperature_method, zlt1, zlt2, t_star_* and most of the configuration leave no trace in the attributes; absent RRR and N carry swapped units and description; LAYER_LWC is labelled kg m^-2 but is a fraction. Everything else proved: units, and descriptions of input, surface and layer variables (C85_input_described, C85_described).

* `C85_attributes` [–] With configuration and constants files that have the shipped keys (any values) the attributes of the result file can be written.
* `C85_settings_partial` [–] Full statement: files with the same attributes were computed with the same constants and the same switches.
* `C85_lost` [–] Constants and settings that leave no trace: whatever their value, the attributes are the same.
* `C85_settings_refuted` [–] Hence the attributes do not determine the settings: two complete sets of settings that differ in the method of the thermal conductivity have the same attributes.
* `C85_labels_partial` [–] Full statement: every variable of the new result file carries the units and the description of its quantity.
* `C85_input_described` [–] A variable of the input carries its own description in the new result file.
* `C85_labels_refuted` [–] Precipitation that is absent from the input: its units are "Total precipitation", its description is "mm"; likewise for cloud cover.
* `C85_carried` [–] The file carries exactly the attributes made from the settings (see `C85_attributes` and `C85_settings_partial` for what they say).
* `C85_coordinates` [–] Time and place are those of the input.
* `C85_output` [–] In the file, a variable of the output lists holds the simulated values, with the units of the simulated quantity; every other variable is as before.
* `C85_described` [–] A simulated variable of the surface or the layers in the file carries its own description.
* `C85_snowfall` [–] 
* `C85_same` [–] The model with labels agrees with the one without, about which the other claims are (C42, C70): same outcome, same data.
* `C85_water_refuted` [–] The variable LAYER_LWC is labelled "kg m^-2", but holds a volume fraction: its value is the layer's mass of water per square metre only if there is none or the layer is as thick as one kilogram of water (1 mm).

### C86 — Prepared input files say where and what their data are

*Status:* **partial**. *Modelled from:* `cosipy/utilities/aws2cosipy/aws2cosipy.py:create_1D_input`, `cosipy/utilities/aws2cosipy/aws2cosipy.py:create_2D_input`, `cosipy/utilities/wrf2cosipy/wrf2cosipy.py:create_input`.

*Method:* coordinates as an observation 'cell (i, j) lies at'; nearest point by the minimum of absolute differences; units read from the label and compared with an independent list of what the simulation takes.

Refuted: the 1-D branch with WRF dimensions swaps latitude and longitude; N is labelled % but a fraction is meant (aws2cosipy); T2 is labelled m (wrf2cosipy). Everything else proved.

* `C86_grid` [–] With and without WRF dimensions: the cell in row `i` and column `j` lies at the `i`-th latitude and the `j`-th longitude of the static file; there are no other cells.
* `C86_wrf` [–] The coordinates are the fields of WRF at its first time.
* `C86_point_partial` [–] Full statement: the file's only point lies at the configured latitude and longitude.
* `C86_point_refuted` [–] With WRF dimensions the configured longitude is stored as latitude and the latitude as longitude, with any static file.
* `C86_static_latitude` [–] With a static file, slope, aspect and mask are those of a cell at another latitude than the one in the file, unless the static file has exactly the configured latitude.
* `C86_aws_variables` [–] The variables aws2cosipy writes: nine always, four if the table has them.
* `C86_aws_units_partial` [–] Full statement: every variable is labelled with the unit in which the simulation takes it.
* `C86_aws_units_refuted` [–] Cloud cover is labelled as a percentage, but taken (and checked, C87) as a fraction.
* `C86_wrf_units_partial` [–] Proved for all variables the simulation takes but temperature.
* `C86_wrf_units_refuted` [–] Temperature is labelled as a length.

### C87 — Checks of preparation and simulation agree

*Status:* **partial**. *Modelled from:* `cosipy/utilities/aws2cosipy/aws2cosipy.py:check`, `cosipy/utilities/wrf2cosipy/wrf2cosipy.py:check`, `cosipy/cpkernel/io.py:IOClass.check_input_data`, `cosipy/utilities/aws2cosipy/aws2cosipy.py:create_1D_input`.

*Method:* the warning is the negation of the check with other bounds; inclusion of ranges per variable; witness values for the others.

Refuted for temperature, pressure, longwave radiation (and snowfall of wrf2cosipy); proved for the other variables.

* `C87_routine` [–] A non-empty field is warned about iff some value that is not NaN is out of the bounds.
* `C87_aws_warned` [–] A variable that is present is warned about iff one of its values that is not NaN is out of the range above, and reported as fine otherwise.
* `C87_wrf_warned` [–] 
* `C87_aws_partial` [–] Full statement: for a variable it does not warn about, the simulation prints ok.
* `C87_wrf_partial` [–] Proved for humidity, wind and radiation; false for temperature, pressure, longwave radiation and snowfall.
* `C87_aws_refuted` [–] Aws2cosipy does not warn about temperature, pressure and longwave radiation, the simulation does not print ok.
* `C87_wrf_refuted` [–] Wrf2cosipy accepts even half a metre of snow in one step.
* `C87_converse_refuted` [–] The other direction: what the simulation calls ok, aws2cosipy does not warn about, but for snowfall (0.07 m).

### C88 — Profiles show the value of the layer at a depth

*Status:* **partial**. *Modelled from:* `cosipy/postprocessing/profile_plots/plot_profiles.py:plot_profile_1D`, `cosipy/postprocessing/profile_plots/plot_profiles.py:plot_profile_1D_timeseries`, `cosipy/postprocessing/profile_plots/plot_profiles.py:naive_fast`.

*Method:* nearest interface among the partial sums of the heights: order arguments on strictly increasing sums, first-minimum characterisation of nanargmin.

Refuted: in the upper half of every layer but the first the value of the layer above is shown. Proved: lower halves, the first layer, outside the column, the grid point.

* `C88_printed_partial` [–] For every profile of positive layer heights, every depth `d` inside layer `k` and every padding: below the middle of the layer, its bottom and its own value are printed.
* `C88_printed_upper` [–] In its upper half, the top of the layer is printed with the value of the layer **above** it (of the layer itself only if it is the first).
* `C88_printed_outside` [–] Below the column the lowest layer is printed, above the surface the first.
* `C88_drawn_partial` [–] `y` is a height above the bottom of the snow, `snow - y` the depth, inside layer `k`: in the first layer, and below the middle of the others, the layer's value is drawn.
* `C88_drawn_above` [–] Nothing is drawn at and above the surface.
* `C88_cell` [–] The point of the search has the smallest squared difference of coordinates (in degrees) of all grid points.
* `C88_refuted` [–] Snow of 0.1 m and 200 kg/m³ above ice of 1 m and 900 kg/m³: at the depth 0.5 m, in the ice, the density of snow is printed (with the depth 0.1 m); likewise drawn.

### C89 — Merging and conduction keep the heat of the column

*Status:* **partial**. *Modelled from:* `cosipy/cpkernel/grid.py:Grid.merge_nodes`, `cosipy/modules/heatEquation.py:solveHeatEquation`.

*Method:* merging: covariance formula for the height-weighted mean of two columns; conduction: telescoping of interface fluxes weighted by the share of each layer, induction over the sub-steps of C23; necessity by a step profile at the interface; refutation on a snow-on-ice column.

Refuted: merging averages temperatures by height, not by heat capacity; conduction divides fluxes by spacing, not by the height and capacity of the layer. Exact change proved for both and for whole calls; heat is kept exactly if capacities or temperatures agree (merging), and for all closed profiles exactly if all inner layers have the same share C*h/spacing (conduction).

* `C89_merge` [pcq] Merging two layers changes the heat of the column by the product of the differences of their heat capacities and temperatures, times half the harmonic mean of their heights.
* `C89_merge_partial` [pcq] Full statement: merging keeps the heat of the column.
* `C89_conduct` [pcq] One sub-step of length `τ` changes the heat of the column by `τ` times the fluxes out of and into the inner layers, each weighted with the layer's own share.
* `C89_conduct_partial` [pcq] Full statement: the heat of the column changes only by what passes its two outermost interfaces.
* `C89_iff` [pcq] A sub-step keeps the heat of a column through whose ends nothing passes, for all temperatures, if and only if all inner layers have the same share.
* `C89_call` [pcq] Conducting heat for `dt` changes the heat of the column by the sum of the changes of sub-steps that add up to exactly `dt`.
* `C89_uniform_partial` [pcq] Full statement: conducting heat changes the heat of a column only by what enters through its ends.
* `C89_conduct_refuted` [pcq] Half an hour of conduction, which is a single sub-step, takes more than 180 kJ/m² from a column through whose ends no heat passes: the ice loses more heat than the snow above it gains.
* `C89_merge_refuted` [pcq] Merging the two layers at the interface takes more than 320 kJ/m² from the column.

### C90 — A time step can fail to end only in remeshing or heat conduction

*Status:* **proved**. *Modelled from:* `cosipy/cpkernel/cosipy_core.py:cosipy_core`, `cosipy/cpkernel/grid.py:Grid.remove_melt_weq`, `cosipy/cpkernel/grid.py:Grid.update_grid`, `cosipy/modules/heatEquation.py:solveHeatEquation`.

*Method:* the step is split at heat conduction (C90_parts); every other part is shown not to run out of fuel in any arithmetic (Lemmas/StepFuel), melt removal by a measure on layers and sign of the remaining melt; fuel monotonicity of every loop; simulation by induction over the forcing; floating point by C82; NaN by a loop state that repeats (Model/Nan).

Generic in the arithmetic. C90_iff: the condition on heat conduction is necessary. C90_patience: the number of loop passes the model allows never changes an outcome. C90_float: in binary floating point with adaptive remeshing a step ends if the stability bound is positive and at least 2^(1-p) of dt. C90_nan: a NaN top layer makes melt removal endless. SciPy's solvers are assumed to end (Solvers.Halt).

* `C90_parts` [pq] A time step is the part up to heat conduction, heat conduction, and the rest.
* `C90_step` [pcq] A time step ends if remeshing the column after snowfall ends, and heat conduction in the column it reaches ends.
* `C90_adaptive` [pcq] With adaptive remeshing only heat conduction can fail to end.
* `C90_iff` [pq] If the part of the step before heat conduction returns, the step ends exactly if heat conduction in the column it reaches does.
* `C90_run` [pcq] A simulation of any length ends if remeshing and heat conduction end in every step it reaches.
* `C90_patience` [pq] A simulation that returned or raised within some number of loop passes does the same with any larger number.
* `C90_nan` [pcq] If the water equivalent of the uppermost layer compares with nothing (it is NaN), removing any positive amount of melt never ends.
* `C90_float` [pcq] In binary floating point (no overflow, no NaN) with adaptive remeshing a time step ends, with a result or an exception, if in the column heat conduction is given the stability bound is positive and not below `2^(1-p)` of the time step (`2^-51` in double precision).

### C91 — The shading table of a year says for each day and hour which cells the sun reaches

*Status:* **partial**. *Modelled from:* `cosipy/modules/radCor.py:LUTshad`, `cosipy/modules/radCor.py:calcRad`, `cosipy/modules/radCor.py:relshad`.

*Method:* `lutShad` fills a table by a fold; general lemma on filling a table at distinct positions, with the positions of C63; content by the sight lines of C78 and the tangent of the arcsine.

Proved for steps of a whole number of hours that divides the day (C91_lookup_partial, C91_built_partial); the content of an entry (C91_entry) without that bound. Refuted otherwise: with five hours the table is never built (C91_five_hours_refuted), under an hour it raises (C91_short_step). The direction of the sun is that of C78. Real arithmetic for the content, any arithmetic for the positions.

* `C91_lookup_partial` [pcq] The step is `k` hours and divides the day.
* `C91_built_partial` [pcq] With such a step the table is built if there is a row for each of the 366 days and every entry can be computed: no write falls outside.
* `C91_five_hours_refuted` [pcq] With a step of five hours the table of a year is never built, whatever the terrain.
* `C91_short_step` [pcq] A step under an hour raises ZeroDivisionError.
* `C91_entry` [pcq] For every place, day and hour there is a list of terrain points per cell, independent of elevations; an entry of the table is NaN off the glacier; at night (sine of the sun's elevation at most 0.01) it is -1; by day it is NaN on the border, and inside 1 exactly if no point rises above the line of sight to the sun, otherwise 0.

### C92 — Maps and profiles of a result file show each value at its place and time

*Status:* **partial**. *Modelled from:* `cosipy/postprocessing/vtk_plots/plot_cosipy_fields_vtk.py:create_points`, `cosipy/postprocessing/vtk_plots/plot_cosipy_fields_vtk.py:add_scalar`, `cosipy/postprocessing/vtk_plots/plot_cosipy_fields_vtk.py:createDEM_v2`, `cosipy/postprocessing/field_plots/plot_cosipy_fields.py:get_selection`, `cosipy/postprocessing/field_plots/plot_cosipy_fields.py:save_image`, `cosipy/postprocessing/profile_plots/plot_profiles.py`.

*Method:* points by position in a flatMap; colours by a fold over cells with an exact closest-point search, which finds a cell's own point; nearest of sorted days by integer arithmetic; names by filtering separators; variables by the written file of C85.

Surface points, colours, single times, means and variables in full (C92_points, C92_scalars, C92_time, C92_mean, C92_fields, C92_panels; for the places of the panels see C137); the search for the closest point (VTK) is assumed exact. Refuted: times from noon on show the mean of the next day (C92_mean_refuted, C92_mean_partial before noon); the mesh by indexing (createDEM_v2, not called) lacks and misconnects patches and refers to a missing point (C92_quads_refuted, C92_quads_partial); timestamps of different form can share a file name (C92_names_refuted, C92_names_partial); the time axis of profiles is right for hourly records only (C92_ticks_refuted, C92_ticks_partial); a measurement at the first record is not drawn (C92_first_stake).

* `C92_distributed` [–] The maps are drawn iff there are at least two cells along every dimension of space.
* `C92_points` [–] There is one point for every grid cell, at the cell's longitude, latitude and elevation: the point of the `i`-th longitude and the `j`-th latitude has the number `i * nlat + j`.
* `C92_scalars` [–] On a grid whose longitudes and latitudes are all different, and with an exact search for the closest point, the value at the point of a cell is the value of that cell; it is missing exactly where the cell has none.
* `C92_quads_partial` [–] Full statement: the quads are the patches between neighbouring longitudes and latitudes.
* `C92_quads_refuted` [–] On every grid of at least two by two cells the mesh by indexing lacks the patches along the first latitude, connects the last latitude of a longitude with the first one of the next, and refers to a point that does not exist.
* `C92_mean_partial` [–] Full statement: for every time within the period of the data, the mean shown for it is that of the calendar day of the time.
* `C92_mean_refuted` [–] In the afternoon the mean of the following day is shown, whenever the data reach it.
* `C92_mean` [–] The mean of a day is the sum of its numbers divided by their count, hence between the smallest and the largest; it is missing only if the day has no number.
* `C92_time` [–] A map for a time shows the record of that time, and there is only one.
* `C92_names_partial` [–] Full statement: pictures of different variables or different times go to different files.
* `C92_names_refuted` [–] 11 January and 1 November 2009, written without leading zeros, give the same file name.
* `C92_ticks_partial` [–] Full statement: the label of a time is under the column of the record of that time, and a measurement is drawn in the column of its time.
* `C92_ticks_refuted` [–] With another time step a label under the `k`-th column, other than the first, belongs to another time than the column.
* `C92_first_stake` [–] A measurement at the first record is never drawn.
* `C92_fields` [–] With the shipped output lists, and radiation and elevation in the input, the variables of the maps of several fields are in the result file, with a description.
* `C92_panels` [–] Both maps of several fields fill the three columns of four rows, each panel with another variable; both show the sensible, latent and ground heat fluxes, snow height, melt, surface temperature, global radiation, refreezing or incoming longwave radiation, and both mass balances.

### C93 — The stake files compare every stake with the simulation of its cell

*Status:* **partial**. *Modelled from:* `COSIPY.py:run_cosipy`, `cosipy/cpkernel/cosipy_core.py:cosipy_core`, `cosipy/modules/evaluation.py:evaluate`, `cosipy/modules/evaluation.py:rmse`.

*Method:* the loop with all records is the loop with stakes of C60; the returned tuple by position; the loop over finished cells by induction, columns by name; stakes of all glacier cells as a permutation.

Proved for stakes on glacier cells (C93_simulations_partial, C93_statistics), exact arithmetic, different stake names, time stamps that occur once. Refuted for the others: the measurements themselves stand in the file of simulations (C93_elsewhere_refuted). The cell of a stake is that of C68. Rounding in the files is not modelled.

* `C93_simulations_partial` [pcq] Full statement: the column of every stake in `stake_simulations.csv` holds the simulated values of the stake's cell at the times of measurement.
* `C93_statistics` [pcq] `stake_statistics.csv` has exactly one row for every stake on a glacier cell, and the row of a stake is the score (`C60_rmse`) of its measurements against the simulated values of its cell.
* `C93_elsewhere_refuted` [pcq] The column of a stake that is on no glacier cell: its own measurements stand in the file of simulations, whatever the simulation; in the statistics it has no row.

### C94 — The reported mass balance is the change of the ice of the column

*Status:* **partial**. *Modelled from:* `cosipy/cpkernel/cosipy_core.py:cosipy_core`, `cosipy/cpkernel/grid.py:Grid.remove_melt_weq`, `cosipy/modules/penetratingRadiation.py:method_Bintanja`, `cosipy/modules/refreezing.py:refreezing`.

*Method:* ice mass followed through the stages of a step as in C58, water and ice separated; terms named in `Spec/IceBalance`; run by induction over the forcings.

Refuted: an hour with frost reports a gain and leaves the column as it was (C94_refuted). Proved instead, in exact arithmetic: the difference is exactly the sum of seven named terms, per step and over a run of any length (C94_step_partial, C94_run_partial), its sign in frosty and in melt hours (C94_overstates, C94_understates) and a condition for equality (C94_exact).

* `C94_step_partial` [pcq] The reported balance is the change of the ice plus the named differences; `g2`, `g3` are the column before and after penetrating radiation, `g8` the column before densification.
* `C94_run_partial` [pcq] Over a run of any length through physical columns, the change of the cumulative balance is the change of the ice plus the differences of the steps.
* `C94_overstates` [pcq] Without sun, evaporation and densification, an hour in which vapour brings at least what melts never reports less than the ice that was gained.
* `C94_understates` [pcq] Without sun, snowfall and densification, if no layer was dropped, an hour with more melt than vapour never reports more than the change of the ice.
* `C94_exact` [pcq] In an hour without sun, snowfall, evaporation, densification and dropped layers, in which vapour and melt cancel, the balance is the change of the ice.
* `C94_refuted` [pcq] The step returns, reports a gain, and the column has exactly the ice it had before; it holds no liquid water before or after.

### C95 — A simulation of numbers gives numbers

*Status:* **proved**. *Modelled from:* `cosipy/cpkernel/cosipy_core.py:cosipy_core`, `cosipy/modules/surfaceTemperature.py:eb_fluxes`, `cosipy/modules/surfaceTemperature.py:update_surface_temperature`, `cosipy/modules/heatEquation.py:solveHeatEquation`, `cosipy/modules/densification.py:densification`, `cosipy/modules/albedo.py:updateAlbedo`.

*Method:* homomorphism: every module commutes with the embedding of numbers into numbers with NaN where its denominators and arguments are in order (`Lemmas/NanHom`, `NanGrid`, `NanModules`, `NanFlux`); they are in order on physical columns; step stage by stage (`Lemmas/NanStep`), run by induction.

Arithmetic with NaN, no infinities (a division by zero gives NaN, so none occurs), no overflow, Richardson scheme. For densification methods other than constant the theorem assumes that no layer height reaches zero (C59 shows that compaction can use up a layer).

* `C95_step` [pcq] A step in the arithmetic with NaN that starts on a physical column of numbers and returns is a step on numbers, for some solver whose answer is not below 220 K: no value it reports and no value of the new column is NaN.
* `C95_run_constant` [pcq] For every forcing sequence of any length in range: a simulation that starts on a physical column of numbers and returns reports only numbers and ends with a column of numbers.
* `C95_solver` [pq] Whatever the surface temperature solver answers that is not below 220 K, NaN included, the surface temperature is a number between 220 K and the melting point; for the answer NaN it is the melting point.
* `C95_real` [pcq] The elementary functions on the real numbers are as needed.
* `C95_run` [pcq] For the real functions, every densification method and every forcing sequence of any length in range: if no layer height becomes zero, negative or NaN during the simulation, a simulation that starts on a physical column of numbers and returns reports only numbers and ends with a column of numbers.

### C96 — A missing forcing value is noticed

*Status:* **partial**. *Modelled from:* `cosipy/cpkernel/cosipy_core.py:cosipy_core`, `cosipy/modules/surfaceTemperature.py:eb_fluxes`, `COSIPY.py:check_for_nan`.

*Method:* NaN followed through the flux formulas; the maximum of 0 and NaN is 0.

Refuted for the three radiation inputs: without global or longwave radiation (or, without it, cloud cover) the melt is reported as zero and the balance is an ordinary number (C96_not_noticed, C96_swallowed). Proved for the other inputs (C96_noticed_partial). Only standalone runs check their input for NaN.

* `C96_swallowed` [pcq] If the global radiation, the incoming longwave radiation or (without it) the cloud cover of a step is missing, a step that returns reports no melt, whatever the column, the constants and the other inputs.
* `C96_noticed_partial` [pcq] If the air temperature, the humidity, the pressure, the wind speed, a given snowfall or the precipitation of a step is missing, a step that returns reports the mass balance NaN, and the accumulated balance is NaN from then on.
* `C96_not_noticed` [pcq] A step of an ordinary column without incoming longwave radiation, and one without global radiation, return an ordinary number as mass balance.

### C97 — The model reports impossible states

*Status:* **partial**. *Modelled from:* `cosipy/cpkernel/grid.py:merge_nodes`, `cosipy/cpkernel/grid.py:correct_layer`, `cosipy/cpkernel/grid.py:check`, `cosipy/cpkernel/grid.py:grid_check`, `cosipy/modules/densification.py:log_fraction_warning`, `cosipy/modules/surfaceTemperature.py:update_surface_temperature`.

*Method:* `Model/Checks.lean`: the conditions of the messages, from the values the operations compute; algebra, error bounds of `Lemmas/FloatErr` for doubles, C34 for the surface.

Refuted: the air fraction is computed as what is missing to 1, so the checked sum is 1 whatever the fractions are; no message ever appears, in exact arithmetic and (those with a tolerance) in double precision, and the check before each time step has no content (C97_silent, C97_silent_double, C97_not_reported). Proved: the surface temperature message is exact and never needed; the uncalled Grid.check reports exactly what it says.

* `C97_silent` [pcq] None of the messages about fractions ever appears: merging and splitting that succeed, a compacted layer, the check before each time step, for every column, possible or not.
* `C97_merge_checked` [pcq] The checks compute what the operations compute: merging and the check of merging succeed together.
* `C97_split_checked` [pcq] Likewise for splitting.
* `C97_not_reported` [pcq] Impossible states are not reported: of the four parts of the full property none holds.
* `C97_surface_partial` [pcq] With a minimiser that keeps its lower bound the message about the surface temperature never appears.
* `C97_surface_exact` [pcq] The message about the surface temperature appears exactly for temperatures outside the bounds.
* `C97_check_partial` [pcq] On a well-formed column with a layer `check` reports a thin layer, a warm layer, a thick layer exactly if there is one.
* `C97_check_empty` [pcq] Without layers it raises ValueError.
* `C97_silent_double` [pcq] Rounding does not make the checks appear either: fractions up to a million, far outside what is possible, pass as consistent.

### C98 — The simulated time is the time of the input

*Status:* **partial**. *Modelled from:* `cosipy/cpkernel/io.py:init_data_dataset`, `cosipy/cpkernel/io.py:create_data_file`, `cosipy/cpkernel/cosipy_core.py:cosipy_core`, `COSIPY.py:main`.

*Method:* main program of C65; the simulation is any function of the records; snow age as clock (C15).

Refuted: any axis in order inside the period is accepted (C98_accepts, C98_refuted), and the time stamps only label the results (C98_relabel); the clock of the simulation advances by dt per record (C98_clock) and falls behind on a coarser axis (C98_drift). C98_regular_partial: on an axis with the configured step they agree.

* `C98_accepts` [pcq] Any axis in time order inside the period is accepted as it is, whatever its steps and gaps.
* `C98_relabel` [pcq] Two inputs with the same records and any two axes in order inside the period: the run ends in the same way, and the result and the restart file hold the same data under other times.
* `C98_refuted` [pcq] Whatever the simulation does with the records: if it succeeds on some two records, the program accepts these records three hours apart although the step is one hour.
* `C98_regular_partial` [pcq] The `i`-th record has the time of the `i`-th step, and the number of records times `dt` is the time covered.
* `C98_clock` [pcq] After any run without new snow the recorded ages have grown by the number of records times `dt`: the time stamps play no role.
* `C98_drift` [pcq] On an axis with the step `k` times the configured one the clock of the simulation is behind: of the time covered it has simulated the `k`-th part.

### C99 — Remeshing keeps the snow cover and the glacier apart

*Status:* **partial**. *Modelled from:* `cosipy/cpkernel/grid.py:log_profile`, `cosipy/cpkernel/grid.py:adaptive_profile`, `cosipy/cpkernel/grid.py:merge_nodes`, `cosipy/cpkernel/grid.py:get_total_snowheight`.

*Method:* both remeshing methods; column split into a snow list and an ice list; loop invariants on both loops.

Refuted for the logarithmic profile (C99_log_refuted, C99_log_not_kept): a glacier remnant thinner than the next layer height is merged into the lowest snow layer and counted as snow. C99_log_partial / C99_snowheight_partial: it holds if the glacier is at least first_layer_height + (layer_stretching-1)*snow height thick. C99_adaptive: holds for the adaptive profile without condition.

* `C99_log_partial` [pcq] If the column is dry snow over dry ice and the glacier is at least `first_layer_height + (layer_stretching - 1) · snow height` thick (or there is no glacier), `log_profile()` leaves dry snow over dry ice, and snow cover and glacier each keep their height, ice, water and heat.
* `C99_adaptive` [pcq] `adaptive_profile()` leaves dry snow over dry ice as such, for every thickness of the glacier: the glacier keeps its height, ice, water and heat, and the snow cover loses only the layers of at most `minimum_snow_layer_height` that the profile deletes.
* `C99_snowheight_partial` [pcq] Under the hypotheses of `C99_log_partial` the reported snow height is the same before and after `log_profile()`.
* `C99_log_refuted` [pcq] With the shipped constants `log_profile()` merges the 1.1 cm glacier remnant below 2 cm of snow into the lowest snow layer: afterwards the column counts as snow only and the reported snow height is 3.1 cm.
* `C99_log_not_kept` [pcq] (violation, as the negation of the full statement).

### C100 — Nothing happens without a cause

*Status:* **proved**. *Modelled from:* `cosipy/cpkernel/cosipy_core.py:cosipy_core`, `cosipy/modules/percolation.py:percolation`, `cosipy/modules/refreezing.py:refreezing`, `cosipy/modules/heatEquation.py:solveHeatEquation`, `cosipy/cpkernel/grid.py:remove_melt_weq`.

*Method:* whole step in rounded arithmetic; every stage is the identity on heights, ice and water of a dry column; induction over the run.

C100_step, C100_matter, C100_rest for one step; C100_run, C100_run_rest for runs of any length. Arithmetic is any `Rounded` one, which binary64 without overflow is (C81); the example is in double precision. For the run theorems the layers must be fixed: no remeshing, constant density, surface layer of at least the minimum height.

* `C100_step` [pcq] Nothing happens without a cause: a step without snowfall, rain, melt and vapour exchange, in the dark, over a dry column reports no runoff, no refreezing, no subsurface melt and no mass balance; it remeshes the column, changes nothing but temperatures in it, and lets it settle.
* `C100_matter` [pcq] With fixed layers the column keeps its layers, their heights, ice and water.
* `C100_rest` [pcq] If the column also has the temperature the surface keeps, nothing changes at all.
* `C100_run` [pcq] However long it goes on: heights, ice and water of the layers stay what they were, and the cumulated mass balance does not drift.
* `C100_run_rest` [pcq] A column of the temperature the surface keeps is, after any number of such steps, exactly the column it was.

### C101 — Remeshing a remeshed column changes nothing

*Status:* **partial**. *Modelled from:* `cosipy/cpkernel/grid.py:log_profile`, `cosipy/cpkernel/grid.py:correct_layer`, `cosipy/cpkernel/grid.py:merge_nodes`, `cosipy/cpkernel/grid.py:update_grid`.

*Method:* inductive predicate for columns on the mesh; invariant over both loops of log_profile incl. the cut-and-merge of a remainder; witness column for the violation.

Refuted (C101_refuted, C101_not_idempotent): layers below the last full mesh layer are merged in pairs, one level further with every call, so a second call changes the result of the first. C101_fixed_partial, C101_update_partial: a column whose layers have the heights h, s*h, s^2*h, ... (lowest snow and lowest glacier layer possibly with a remainder) is returned unchanged, of any length.

* `C101_fixed_partial` [pcq] A column of dry snow over dry ice on the mesh is left exactly as it is by `log_profile()`.
* `C101_update_partial` [pcq] For the whole of `update_grid()` with the logarithmic profile: if also the surface layer has the minimum height, remeshing before a time step does nothing.
* `C101_refuted` [pcq] With the shipped constants the first `log_profile()` leaves three layers, the second merges the lower two of them, and only the third changes nothing any more.
* `C101_not_idempotent` [pcq] Remeshing twice is not remeshing once.

### C102 — The static file is made from the configured terrain and nothing else is touched

*Status:* **partial**. *Modelled from:* `cosipy/utilities/createStatic/create_static_file.py:main`.

*Method:* the program as a function on file systems, external tools as parameters; case analysis of the stages; agreement relation between two file systems; two concrete folders for the violations.

C102_others, C102_failed, C102_tidy: files that are neither the output nor named like an intermediate file keep their content, a failing run leaves the earlier static file, a successful one leaves no intermediate file. C102_fresh_partial: without leftovers the outcome and the static file are determined by DEM and outline. C102_content_partial: then elevation, slope, aspect and mask are all made from the terrain of the settings (window, average), the mask with the configured outline. Refuted in general: C102_stale (exit status of the gdal commands is ignored and leftovers of a failed run are read; a run with a DEM that does not exist reports success with the earlier terrain), C102_eats_input (a DEM named dem.nc is overwritten and deleted).

* `C102_others` [–] Whatever happens, a file that is neither the static file nor has the name of an intermediate file keeps its content; in particular the DEM and the outline, unless they have such a name.
* `C102_failed` [–] A run that raises leaves the static file of an earlier run in place.
* `C102_tidy` [–] A run that succeeds has written the static file and leaves no intermediate file behind.
* `C102_content_partial` [–] In a folder without leftovers and with ordinary names, the static file is put together from the terrain of the settings: elevation, mask, slope and aspect are all made from it, the mask with the configured outline.
* `C102_fresh_partial` [–] Started without intermediate files of an earlier run, the outcome and the static file are determined by the configured DEM and outline.
* `C102_stale` [–] Fails: the first run stops because the outline is misspelt.
* `C102_eats_input` [–] Fails: a DEM that lies in the folder as `dem.nc` is replaced by its coarse version and then deleted.

### C103 — What comes later does not change what came before

*Status:* **proved**. *Modelled from:* `cosipy/cpkernel/cosipy_core.py:cosipy_core`.

*Method:* prefix lemmas for the selection of inputs, the time loop with its records and the returned arrays; induction over the steps.

C103_past: two successful runs on inputs with the same first n records return the same numbers for the first n steps in every array. C103_shorter: a run over the first n records of an input that can be simulated succeeds with the same numbers, or (only without full_field) stops with the ValueError about max_layers. C103_file: the same for the result file of the program on a domain. No laws of arithmetic are used, so it holds for doubles. A later step that raises loses the whole result of the program (C71_one_cell).

* `C103_past` [pcq] Two runs of a cell on inputs with the same first `n` records, from the same start and with the same settings, return the same numbers for the first `n` steps, in every array of the result.
* `C103_shorter` [pcq] If a run of a cell succeeds, the run over its first `n` records succeeds as well and returns the first `n` steps of every array.
* `C103_file` [pcq] Two runs of the program over periods that begin alike, with the same first `n` records in every glacier cell (and the same start, slope and stakes), write the same values for these `n` times, for every wanted variable, cell and layer.

### C104 — The weather determines the surface temperature

*Status:* **partial**. *Modelled from:* `cosipy/modules/surfaceTemperature.py:update_surface_temperature`, `cosipy/modules/surfaceTemperature.py:eb_fluxes`, `cosipy/modules/secant.py:secant`.

*Method:* the balance split into a part that falls strictly and a falling turbulent part times the stability factor; intermediate values on both sides of the jump; the secant iteration started at a root stays there; bounds of the fluxes for a concrete weather.

Refuted both ways: the stability factor jumps from 1 to 0.9025 at a Richardson number of 0.01. C104_two / C104_refuted: with the shipped constants and the shipped secant method, two columns that differ only in the temperature of the top layer report different surface temperatures under the same weather, both balanced. C104_none / C104_none_refuted: there is weather for which no temperature below the melting point is balanced, whatever the method and solver. Proved: exactly one solution in calm air (C104_calm_partial), at most one in near neutral or unstable air (C104_neutral) and in very stable air (C104_stable), existence where the turbulent fluxes heat the surface at the jump (C104_exists_partial). Exact real arithmetic; nothing is shown about uniqueness between the Richardson numbers 0.01 and 0.2 or with wind in the Monin-Obukhov scheme.

* `C104_calm_partial` [pcq] Without wind, in both stability schemes, a balance that is not negative at some temperature and not positive at a higher one is zero at exactly one temperature between them.
* `C104_neutral` [pcq] Where the Richardson number is at most 0.01 (the surface hardly colder than the air, or warmer) there is at most one balanced temperature below the melting point: the balance falls strictly.
* `C104_stable` [pcq] Where the Richardson number is above 0.2 the balance falls strictly, too.
* `C104_exists_partial` [pcq] If the turbulent fluxes do not cool the surface at the step, a balance that is positive at some temperature and negative at a higher one below the melting point is zero between them.
* `C104_two` [pcq] If the turbulent fluxes heat the surface at the step and the balance there is positive but less than 9.75 % of them, there is one balanced temperature below the step and another one above.
* `C104_none` [pcq] If the turbulent fluxes cool the surface at the step and the balance there is negative by less than 9.75 % of them, no temperature below the melting point is balanced: the balance jumps over zero.
* `C104_none_refuted` [pcq] With the shipped constants there is frosty weather (255 K, dry air, 3 m/s of wind) for which no surface temperature balances the fluxes: whatever the method and the solvers, a reported temperature below the melting point leaves a residual.
* `C104_refuted` [pcq] With the shipped constants and the shipped (secant) method there is frosty weather (255 K, saturated air, 3 m/s of wind) for which two columns that differ only in the temperature of the top layer get different surface temperatures, and both balance the fluxes.

### C105 — More water never means less runoff

*Status:* **proved**. *Modelled from:* `cosipy/modules/percolation.py:percolation`, `cosipy/modules/percolation.py:get_runoff`.

*Method:* induction over the layers of two columns at once, using only that the rounded operations are monotone.

C105_runoff for every rounded arithmetic (C105_binary64: double precision); C105_stored (layers and the bound on the growth) in exact arithmetic. Heights not negative; both calls succeed (C16_returns).

* `C105_runoff` [pcq] In rounded arithmetic: a column with at least as much liquid water in every layer that gets at least as much water from above has at least the same runoff.
* `C105_binary64` [pcq] 
* `C105_stored` [pcq] No layer ends with less water, the runoff is not smaller, and it grows by no more than the water that was added.

### C106 — Dividing a layer does not change where its water goes

*Status:* **partial**. *Modelled from:* `cosipy/modules/percolation.py:percolation`, `cosipy/modules/percolation.py:get_runoff`.

*Method:* what is above a layer hands down an amount of water that does not depend on what is below; case split on which parts of the divided layer overflow; induction over the divisions; a concrete column for the lowest layer.

Proved for all divisions of layers above the lowest one (C106_layer for one division with the exact layers, C106_runoff for any sequence). Refuted for the lowest layer (C106_refuted): it is always drained completely, so divided, its upper part keeps its irreducible water and the runoff is smaller by just that (C106_lowest_partial). Exact arithmetic.

* `C106_layer` [pcq] Dividing a layer that is not the lowest changes neither the runoff nor any other layer, and its two parts together hold the water it would hold.
* `C106_runoff` [pcq] However the layers above the lowest one are divided, runoff and stored water stay the same.
* `C106_lowest_partial` [pcq] The property does not hold there: divided, its upper part keeps what it can hold (at most the irreducible water), and the runoff is smaller by just that.
* `C106_refuted` [pcq] Two descriptions of the same column, one with the lowest layer divided in two equal parts, have different runoff.

### C107 — The reported ground heat flux is the heat the column loses

*Status:* **partial**. *Modelled from:* `cosipy/modules/surfaceTemperature.py:update_surface_temperature`, `cosipy/modules/surfaceTemperature.py:eb_fluxes`, `cosipy/modules/heatEquation.py:solveHeatEquation`, `cosipy/cpkernel/cosipy_core.py:cosipy_core`.

*Method:* the stages of a quiet step (C100) with the exact change of heat by conduction (C89); a concrete night computed by the kernel.

Refuted: C107_refuted is a calm dry night with an exactly closed surface balance in which the column gains more than four times what the ground heat flux brings. Proved instead: the exact change, namely the heat that brings the whole top layer to the surface temperature plus what conduction adds (C107_step_partial; C107_uniform_partial for layers of equal height and capacity). Exact arithmetic; heat relative to 0 K; no remeshing and constant density. The witness uses rational numbers with the correct powers and no wind, so the other elementary functions do not matter.

* `C107_step_partial` [pcq] Full statement: in a step without exchange of matter the column loses the reported ground heat flux times the time step.
* `C107_uniform_partial` [pcq] With equal heights and capacities: the heat to bring the top layer to the surface temperature, and what is conducted through the outermost interfaces.
* `C107_refuted` [pcq] A step in which matter is not exchanged and the surface energy balance is exactly closed, and yet the column gains more than four times the heat that goes into it with the ground heat flux.

### C108 — Snow is compacted by the weight of the snow above it

*Status:* **partial**. *Modelled from:* `cosipy/modules/densification.py:method_Boone`, `cosipy/modules/densification.py:method_Vionnet`.

*Method:* induction over the layers above the one in question, with the running sum written as a sum over pairs of neighbours.

Refuted: half the top layer is counted on top of the weight above (C108_excess), and a layer of at most the minimum height hides the layer above it from all layers below (C108_hidden), so the load can be smaller than any fraction of the weight above (C108_refuted). Proved: the exact load for every layer in both methods (C108_boone, C108_vionnet), and that it lies between the weight above and one and a half times that if all layers are compacted (C108_bounds_partial). Exact arithmetic.

* `C108_boone` [pcq] A layer among the first as many as there are snow layers is compacted with the load `seenLoad`, if it can be compacted, and otherwise left alone.
* `C108_vionnet` [pcq] The same load, times gravity and the cosine the code computes.
* `C108_excess` [pcq] If all layers are compacted, the load on a layer below the top is the weight above it plus half the weight of the top layer.
* `C108_bounds_partial` [pcq] Full statement: the load is the weight above.
* `C108_hidden` [pq] A layer that is not compacted hides the layer above it: its weight does not matter for any layer below.
* `C108_refuted` [pcq] With the shipped constants there are columns of snow in which the load on the lowest layer is smaller than any given fraction of the weight above it.

### C109 — Conduction respects the range of temperatures exactly in double precision

*Status:* **proved**. *Modelled from:* `cosipy/modules/heatEquation.py:solveHeatEquation`, `cosipy/cpkernel/node.py:get_layer_thermal_diffusivity`.

*Method:* relative errors of products and quotients in the normal range (Lemmas/HeatMax.lean); the factor 0.8 of the stability bound leaves more room than the 17 roundings of an update need; monotonicity of rounding turns this into an exact bound; invariant over the sub-steps.

IEEE 754 arithmetic without overflow (Model/Float.lean), for at least 24 bits and gradual underflow; C109_binary64 is double precision with the shipped constants. The material constants are assumed to lie in wide ranges (Consts.Ranged), the ice fraction and water content of the layers between 0 and 1.

* `C109_max_principle` [pcq] In binary floating point with at least 24 bits and enough exponent range: temperatures between `lo` and `hi` (and at least one kelvin) are between `lo` and `hi` after conduction, for every time step and any number of sub-steps.
* `C109_melting_point` [pcq] If no layer is above the melting point, conduction lifts none above it: it never starts melt.
* `C109_binary64` [pcq] 

### C110 — Water and ice are conserved in double precision up to the roundings

*Status:* **proved**. *Modelled from:* `cosipy/modules/percolation.py:percolation`, `cosipy/modules/refreezing.py:refreezing`, `cosipy/cpkernel/grid.py:merge_nodes`.

*Method:* calculus of relative errors of amounts that are not negative, with an absolute term for underflow (Lemmas/MassErr.lean); induction over the layers, the amount handed on being the same rounded number on both sides; corollaries with numbers for binary64; examples show that exact conservation fails.

IEEE 754 arithmetic without overflow (Model/Float.lean). The totals are exact sums of exact products of the stored numbers. Refreezing: layers not colder than 200 K with the shipped constants (NotAbsurdlyCold in general), because below some 120 K the code's refreezing amount changes sign. Merging: at an index that is not negative, as called by the remeshing of ordinary columns.

* `C110_percolation` [pcq] The water of the column and the runoff are together the water of the column before and the water supplied, up to four roundings for each layer, and underflow.
* `C110_refreezing` [pcq] The mass of the column, water and ice together, changes by no more than three roundings, and underflow, however many layers there are.
* `C110_refrozen` [pcq] The reported amount is the liquid water the column has lost, up to two roundings for each layer.
* `C110_merge` [pcq] Merging two layers changes the water and the ice of the column by no more than three roundings of the amounts merged, and underflow, and its height by no more than one.
* `C110_percolation_binary64` [pcq] For columns of up to a thousand layers and a thousand kilometres: 10⁻¹² of the water.
* `C110_refreezing_binary64` [pcq] With the shipped constants, for layers of at least 200 K: 10⁻¹⁵ of the mass.

### C111 — More radiation never makes the surface colder or the melt smaller

*Status:* **partial**. *Modelled from:* `cosipy/modules/surfaceTemperature.py:update_surface_temperature`, `cosipy/modules/surfaceTemperature.py:eb_fluxes`, `cosipy/modules/secant.py:secant`, `cosipy/cpkernel/cosipy_core.py:cosipy_core`.

*Method:* a surface is settled if it balances below the melting point or has a balance that is not negative there; slope of the balance in calm air bounded by that of the emitted radiation, so that two balances can be compared; refutation by the fall-back of the secant method, run symbolically over the reals.

The code violates the property: C111_refuted (shipped constants and method, calm air, a column at 215 K: a surface that would settle just below 220 K makes the secant answer be rejected, the fall-back minimiser minimises the signed balance, and the surface is reported at 273.16 K; with more sun it is reported at 220.01 K). Proved: calm air, both stability schemes, settled surfaces (C111_calm_partial), with a tolerance (C111_tolerance_partial), for whole time steps that differ in incoming longwave radiation (C111_step_partial); with wind and the Richardson scheme among nearly neutral or unstable surfaces (C111_neutral_partial); at the melting point without restriction (C111_melting). Exact real arithmetic.

* `C111_calm_partial` [pcq] Full statement: for every column and weather, an update with more radiation reports a surface at least as warm and at least as much melt energy.
* `C111_tolerance_partial` [pcq] As `C111_calm_partial`, with balances that are met up to `ε` only: the surface that receives more radiation is colder by at most `2 ε` over the slope of the emitted radiation at its temperature, and its melt energy is smaller by at most `ε`.
* `C111_melting` [pcq] At the melting point the sum of the fluxes grows by exactly the additional radiation, and so does the melt energy if the sum was not negative; whatever the wind, the scheme and the solvers.
* `C111_neutral_partial` [pcq] With wind and the Richardson scheme the comparison of the temperatures holds among settled surfaces below the melting point at which the air is nearly neutral or unstable.
* `C111_step_partial` [pcq] Two time steps from the same state under calm weather that differs only in the incoming longwave radiation, both with a surface settled up to `ε`: more radiation gives a surface that is colder by at most `2 ε` over the slope of the emitted radiation (with `ε = 0`: not colder), and at least as much melt energy and melt, up to `ε`.
* `C111_refuted` [pcq] With the shipped constants and the shipped (secant) method, over a column at 215 K in calm air: without the additional sun every surface temperature that is returned is the melting point, 273.16 K, with it the surface is reported at 220.01 K, and there the fluxes balance.

### C112 — Settings of methods that are not selected have no effect

*Status:* **partial**. *Modelled from:* `constants.toml`, `cosipy/modules/albedo.py:get_surface_properties`, `cosipy/cpkernel/node.py:Node.get_layer_thermal_conductivity`, `cosipy/cpkernel/grid.py:Grid.update_grid`, `cosipy/cpkernel/init.py:init_snowpack`, `cosipy/cpkernel/cosipy_core.py:cosipy_core`.

*Method:* relation `SameSelected` between two sets of constants, with an equation per setting that is conditional on the selected method; equality of all parts of a step group by group, loops by induction; lifted to runs, cells and domains; refutation by a rational step.

The code violates the property for one setting: C112_refuted (with albedo_method = Bougamont05, albedo_mod_snow_aging, documented as the ageing scale of Oerlemans and Knap, still decides which snow age counts once fresh snow has melted; the reported roughness changes). For all other settings proved for a step, a run, a cell with everything it returns, and a domain with its files (C112_step_partial, C112_run_partial, C112_cell_partial, C112_domain_partial), over any arithmetic without laws.

* `C112_step_partial` [pq] One time step: only the settings of the selected methods matter.
* `C112_run_partial` [pq] A run of any length.
* `C112_cell_partial` [pq] A whole simulation of a cell, with everything it returns for the result, restart and stake files.
* `C112_domain_partial` [pq] The simulation of a domain: the same files.
* `C112_refuted` [pcq] With the Bougamont albedo selected, the time scale of the Oerlemans albedo changes the result: it decides whether the age of the melted snowfall or that of the older snow counts, here for the roughness.

### C113 — Heat conduction is linear, mirror-symmetric, non-expansive and local

*Status:* **proved**. *Modelled from:* `cosipy/modules/heatEquation.py:solveHeatEquation`, `cosipy/cpkernel/grid.py:Grid.set_node_temperature`.

*Method:* the diffusivities and the list of sub-steps are functions of the layers without temperatures (`conductionPlan`); one sub-step is a linear map of the temperatures that reads the two neighbours only; induction over the sub-steps; reversal of lists for the mirror image; counting of the sub-steps.

C113_success (any arithmetic), C113_superposition, C113_shift, C113_nonexpansive, C113_mirror and C113_local, over any ordered field. Rounding is treated in C82 and C109.

* `C113_success` [pcq] Whether conduction completes, and the error otherwise, does not depend on the temperatures.
* `C113_superposition` [pcq] If two columns differ only in their temperatures, a column with any combination of their temperatures is conducted to the same combination of their results.
* `C113_shift` [pcq] A column that is warmer by a constant in all layers is conducted to the result warmer by that constant.
* `C113_nonexpansive` [pcq] Two columns that differ only in their temperatures, by at most `δ` in each layer, differ by at most `δ` in each layer afterwards: errors in temperatures do not grow.
* `C113_mirror` [pcq] A column upside down is conducted to the result upside down.
* `C113_local` [pcq] If two columns differ only in the temperature of layer `j`, they differ after conduction at most in the layers closer than `N` to it, where `N` is the number of sub-steps: less than the time by any stable time, plus one.

### C114 — Refreezing takes each layer by itself and stops when water, pore space or cold is used up

*Status:* **partial**. *Modelled from:* `cosipy/modules/refreezing.py:refreezing`.

*Method:* closed form of the refrozen amount as a minimum that is monotone in cold and water; the loop as a relation between single layers, so that order, neighbours and division do not matter; the case distinction of the minimum gives the end state; refutation by a rational column and, for all columns, by comparing heat capacities.

C114_own (any arithmetic), C114_colder_wetter, C114_divided hold. The end state is violated: C114_refuted (a concrete column whose top snow layer is below the melting point and wet afterwards) and C114_stays_cold (in every valid column a layer below the melting point stays below it, however much water it has: the amount is limited by the cold of the ice alone, but the latent heat is spread over ice and water). C114_stops_partial says what the freezing stops at: no water, glacier ice, or the cold of the ice.

* `C114_own` [pq] What becomes of a layer does not depend on the other layers nor on its place in the column.
* `C114_colder_wetter` [pcq] In a column that is colder and wetter, every layer refreezes at least as much, and so does the column.
* `C114_divided` [pq] A column whose layers are divided into any number of pieces refreezes as much in total, and in the pieces of each layer together as much as in the layer; the pieces stay pieces of the layer.
* `C114_stops_partial` [pcq] In a layer that is not above the melting point freezing stops because no water is left, because the layer has become glacier ice, or because the latent heat equals the cold of the ice the layer had before.
* `C114_stays_cold` [pcq] A layer below the melting point is still below it after refreezing, however much water it has.
* `C114_refuted` [pcq] Fails in general: after refreezing, the top layer of this column is below the melting point, has water and is snow; refreezing it again freezes more.

### C115 — Upper limits survive floating-point rounding: no more ice than volume, albedo at most one, no more shortwave absorbed than arrives

*Status:* **partial**. *Modelled from:* `cosipy/cpkernel/grid.py:merge_nodes`, `cosipy/cpkernel/grid.py:correct_layer`, `cosipy/cpkernel/node.py:__init__`, `cosipy/modules/refreezing.py`, `cosipy/modules/densification.py`, `cosipy/modules/albedo.py:method_Oerlemans`, `cosipy/cpkernel/cosipy_core.py:cosipy_core`.

*Method:* invariant with the upper limit carried through every stage in the abstract rounded arithmetic of C81 plus `a / a ≤ 1`; merging by monotonicity of the quotient; ages of the snow not negative as a second invariant, for the albedo; refutation over the reals with a bound on the exponential.

C115_step: all eight columns inside a step, from snowfall to conduction; after densification for the constant and the empirical method. C115_run_constant, C115_binary64: whole runs. C115_run_partial: whole runs of all methods, under hypotheses on what compaction leaves (heights not negative; for Boone and Vionnet no more ice than volume). Without them it is violated: C115_boone_refuted (30 m of fresh snow and a daily time step; the method multiplies the ice fraction without a limit). C115_albedo, C115_shortwave: Oerlemans albedo, under the condition BrightSane, which the shipped parameters meet in double precision.

* `C115_albedo` [pq] In rounded arithmetic the albedo of the Oerlemans scheme lies between 0 and 1.
* `C115_step` [pcq] In rounded arithmetic, from a column in which no layer holds more ice than its volume, with fresh snow not denser than ice: no layer does in any column between the stages of the step; with constant or empirical densification none does after the step either.
* `C115_shortwave` [pcq] In rounded arithmetic, with the Oerlemans albedo: the recorded albedo lies between 0 and 1, and the recorded net shortwave radiation between 0 and the incoming radiation.
* `C115_run_constant` [pcq] In rounded arithmetic no layer of any column of a run ever holds more ice than its volume, whatever the forcing, as long as the fresh snow is not denser than ice.
* `C115_run_partial` [pcq] The full statement has neither of the last two hypotheses: it is refuted for Boone compaction (`C115_boone_refuted`).
* `C115_binary64` [pcq] With the shipped constants but constant density, in IEEE 754 binary64 arithmetic without overflow: no layer of any column of a run holds more ice than its volume.
* `C115_boone_refuted` [pcq] In exact arithmetic, with the shipped constants and a daily time step: a column without negative contents in which no layer holds more ice than its volume is compacted to one in which a layer does.

### C116 — Station data are distributed over the glacier by height alone

*Status:* **partial**. *Modelled from:* `cosipy/utilities/aws2cosipy/aws2cosipy.py:create_2D_input`, `cosipy/utilities/aws2cosipy/aws2cosipy.py:set_bias`.

*Method:* closed formula of each field of a cell (`Shifted`), read off the loop over the cells; uniqueness of what satisfies it; selection of cells by induction over the selection; refutation for every lapse rate above zero.

C116_series, C116_same_height and C116_local for every number type, floating point included. C116_station_height, C116_gradient in exact arithmetic. Dry hours: proved for a precipitation lapse rate of zero, as shipped (C116_dry_partial); violated otherwise, C116_dry_refuted: with a positive lapse rate it rains in every hour above the station.

* `C116_series` [pq] In whatever `create_2D_input` writes, every cell's fields are the station's series shifted according to the height of the cell, and nothing else of the cell matters except for the radiation.
* `C116_same_height` [pq] Cells of the same height get the same values, wherever they lie; the radiation too if both belong to the glacier and no radiation module is used.
* `C116_local` [pq] The weather of a cell does not depend on the other cells: preparing any selection of the cells, in any order and any number of times, gives each of them what it gets in the whole domain.
* `C116_station_height` [pcq] A cell at the height of the station gets the temperature (in kelvin), wind, longwave radiation and cloud cover of the station, its humidity and precipitation as far as they are possible.
* `C116_gradient` [pcq] Of two cells of heights `z ≤ z'` at the same time: the temperatures differ by the lapse rate times the height difference exactly; precipitation and snowfall are not smaller above if their lapse rate is not negative.
* `C116_dry_partial` [pcq] The claim is that a cell has precipitation only in hours with precipitation at the station.
* `C116_dry_refuted` [pcq] With a positive precipitation lapse rate it rains in every cell above the station in every hour in which the station records no precipitation, by the lapse rate times the height difference.

### C117 — Penetrating radiation is absorbed at the depth Beer's law gives

*Status:* **partial**. *Modelled from:* `cosipy/modules/penetratingRadiation.py:method_Bintanja`, `cosipy/cpkernel/grid.py:get_depth`.

*Method:* telescoping sum of the exponentials at the middles of the layers for every prefix of the column; middles of divided columns compared; strict monotonicity of the exponential for the refutations, which hold for every column.

Over the reals. C117_profile_partial, C117_warming_partial: down to the middle of any layer exactly what Beer's law extinguishes above it is given out, and taken up if nothing melts (C117_cold says when). C117_division: the heat taken up down to a layer below does not depend on dividing a layer above it. Violated for the extent of the layers: C117_extent_refuted (the first layer always gets less than its share), C117_division (dividing a layer moves heat upwards), C117_lost_refuted (what passes the middle of the last layer but one is withdrawn from the surface and given to no layer).

* `C117_profile_partial` [pcq] The energies `es` that the layers are given per second: those of the first `m` layers add up to what is extinguished above the middle of the `m`-th.
* `C117_warming_partial` [pcq] The uppermost `m` layers together warm by at most what is extinguished above the middle of the `m`-th; by exactly that if nothing melts.
* `C117_extent_refuted` [pcq] Whatever the column (of at least two layers): the first layer takes up strictly less than is extinguished between its upper and its lower face, for every positive radiation.
* `C117_lost_refuted` [pcq] The column never takes up all of the radiation that is withdrawn from the surface: what Beer's law sends below the middle of the last layer but one is lost.
* `C117_division` [pcq] Two columns, the second with one layer `n` (any but the last) of the first divided into two halves, in which nothing melts: the layers down to any layer below the divided one take up the same heat in both; the two halves together with the layers above take up strictly more than the undivided layer with those above.
* `C117_cold` [pcq] A column is too cold to melt if all of the net radiation, given to any single layer, leaves it below the melting point; then every layer keeps its height.

### C118 — A glacier cell's results depend on the cell alone

*Status:* **proved**. *Modelled from:* `COSIPY.py:run_cosipy`, `cosipy/cpkernel/cosipy_core.py:cosipy_core`, `cosipy/cpkernel/io.py:IOClass.copy_local_to_global`, `cosipy/cpkernel/io.py:IOClass.write_results_to_file`.

*Method:* induction over the time loop showing that labels and stakes do not reach states and records; each cell's slice of the file is its own result whatever the schedule.

C118_cell: two programs over any two domains with the same number of times that both have a cell with the same forcing, slope and start write the same values for it in every variable of the result file. C118_restart: the same for the restart file. No laws of arithmetic are used, so it holds for doubles. Both programs are assumed to finish: an exception in any cell ends the whole program (C71).

* `C118_cell` [pcq] Two runs of the program over the same number of times, on any two domains: a glacier cell of the first and one of the second with the same input get the same values of every variable both write, at every time and in every layer.
* `C118_restart` [pcq] The same for the restart file.

### C119 — The surface fluxes are computed without dividing by zero

*Status:* **partial**. *Modelled from:* `cosipy/modules/surfaceTemperature.py:eb_fluxes`, `cosipy/modules/surfaceTemperature.py:ustar`, `cosipy/modules/surfaceTemperature.py:phi_m`, `cosipy/modules/surfaceTemperature.py:method_EW_Sonntag`.

*Method:* a second model of the routine with checked divisions, shown to refine the first; all divisors of both schemes bounded away from zero, by the invariant that the Obukhov length stays non-negative; intermediate value theorem for the refutation, the first pass being quadratic in the wind speed.

Model/Divisions.lean is the flux routine with every division by a non-literal checked. C119_agree (every arithmetic): when it returns, the routine of the model returns the same. Over the reals: C119_ri (Richardson scheme: no divisor is zero in sane weather), C119_range (between 220 K and 330 K, where the solvers search, the surface does not boil at 210 hPa or more), C119_mo_partial (Monin-Obukhov scheme over a surface not warmer than the air). Violated in unstable air: C119_friction_refuted, C119_mo_refuted (for every sane weather over a warmer surface there is a wind speed for which the second pass divides by zero).

* `C119_agree` [pq] Whenever the routine with checked divisions returns, the routine of the model returns the same fluxes.
* `C119_ri` [pcq] For sane weather no divisor is zero: the routine with checked divisions does what the routine of the model does, and raises only what that raises (missing radiation data, unknown methods, an empty column).
* `C119_mo_partial` [pcq] Over a surface that is not warmer than the air no pass of the iteration divides by zero.
* `C119_friction_refuted` [pcq] The friction velocity is then a quotient by zero, whatever the wind.
* `C119_mo_refuted` [pcq] For every sane weather over a warmer surface there is a wind speed for which the flux routine divides by zero: the first pass gives the Obukhov length at which the correction for momentum equals the logarithm, and the second pass divides by their difference.
* `C119_range` [pcq] Between 220 K and 330 K, where the solvers search, the surface does not boil at a pressure of 210 hPa or more.

### C120 — The configured period is what is simulated from a file prepared from WRF

*Status:* **partial**. *Modelled from:* `cosipy/utilities/wrf2cosipy/wrf2cosipy.py:create_input`, `cosipy/cpkernel/io.py:IOClass.init_data_dataset`.

*Method:* lexicographic order of digit strings of fixed width shown to be the order of numbers, field by field, up to the separator in which the two formats differ.

C120_order: among themselves the texts are in time order and distinct. Violated for the period: the file has a hyphen between hour and minute, the configuration a colon, which sorts later. C120_first_refuted: the record of the configured start is never simulated, and all records of the hour of the end are. C120_selected_partial and C120_hourly_partial say exactly which records are simulated; C120_days: wrf2cosipy leaves out the whole day given as the end.

* `C120_order` [–] In the prepared file the text of times is in the order of the times, so the file is in time order, and two times have the same text only if they are the same.
* `C120_selected_partial` [–] From a prepared file a simulation uses exactly the records whose hour is after the hour of the configured start and not after the hour of the configured end, in the order of the file.
* `C120_hourly_partial` [–] For a period given in full hours the simulation uses the records after the start up to and including the end.
* `C120_first_refuted` [–] The record of the configured start is never simulated, and one of the hour of the end is, however late in it.
* `C120_days` [–] The days from the start to the day before the end are kept: the day given as the end is left out (aws2cosipy, whose times are not text, keeps it).

### C121 — The number of layers stays bounded however long a simulation runs

*Status:* **proved**. *Modelled from:* `cosipy/cpkernel/grid.py:Grid.log_profile`, `cosipy/cpkernel/grid.py:Grid.adaptive_profile`, `cosipy/cpkernel/grid.py:Grid.correct_layer`, `cosipy/cpkernel/cosipy_core.py:cosipy_core`.

*Method:* loop invariants: every pass of log_profile that does not merge a layer away uses up one more level of the mesh out of the depth; adaptive_profile passes over a layer only if it is thick; then no later stage adds a layer, and induction over the steps.

C121_log and C121_adaptive: one remeshing. C121_step_log, C121_step_adaptive: one step. C121_run_log, C121_default: runs of any length on the logarithmic mesh. C121_never_stops: with max_layers at least the bound the run with its layer check is the run without it. The depth of the columns, their heights not being negative and the hourly snowfall are hypotheses on the run. C121_adaptive_stops: max_layers itself is not enforced by remeshing. Exact arithmetic.

* `C121_log` [pcq] Layers below the mesh are merged in pairs: at most half of the layers and those of the mesh, whose levels fit into twice the depth of the column, are left.
* `C121_adaptive` [pcq] The number of layers is bounded by the depth of the column alone: all but four layers take up at least `minimum_snow_layer_height` each.
* `C121_step_log` [pcq] Let the column with the new snow be at most `H` deep, and let the first `L + 1` levels of the mesh be more than `2 * H` thick.
* `C121_step_adaptive` [pcq] The number of layers after the step is bounded by the depth of the column with the new snow, whatever it was before.
* `C121_run_log` [pcq] If the columns of a run with the new snow stay at most `H` deep, the number of layers never exceeds the larger of what it was at the start and `2 * L + 2`, however long the run is.
* `C121_never_stops` [pcq] On the logarithmic mesh, with `max_layers` at least the bound and at least the number of layers at the start, the run with its layer check is the run without it.
* `C121_default` [pcq] With columns up to 990 m deep and up to 10 m of snow in an hour there are never more than 118 layers if there were no more at the start; the shipped limit is 200.
* `C121_adaptive_stops` [pcq] Remeshing bounds the number of layers by the depth of the column, not by `max_layers`: on the adaptive mesh a column with `max_layers` layers gets one more from an hour with snowfall, and the run stops.

### C122 — What is written to the layers is what is read from them

*Status:* **proved**. *Modelled from:* `cosipy/cpkernel/grid.py:Grid.set_temperature`, `cosipy/cpkernel/grid.py:Grid.get_temperature`, `cosipy/cpkernel/grid.py:Grid.set_node_temperature`, `cosipy/cpkernel/grid.py:Grid.get_thermal_diffusivity`, `cosipy/cpkernel/node.py:Node`.

*Method:* Accessors as functions of a small list of stored quantities; list lemmas for the loops over the counter; exact for every arithmetic.

A list shorter than the number of layers is outside the statement (compiled code does not check the bounds of arrays).

* `C122_profile` [pq] The profile of a stored quantity has one entry for each layer, from the surface down.
* `C122_layer` [pq] The query of a layer returns the entry of the profile; negative positions count from the bottom.
* `C122_outside` [pq] Other positions raise IndexError, in reading and in writing.
* `C122_set_profile` [pcq] With a value for each layer (more are ignored) the profile read afterwards is the one written; the other profiles, the number of layers and the record of fresh snow stay as they were.
* `C122_set_layer` [pcq] Only the entry of that layer changes.
* `C122_last_wins` [pcq] The last of two settings of a profile counts.
* `C122_commute` [pcq] Settings of different quantities can be exchanged.
* `C122_complete` [pq] Columns with the same five profiles have the same layers.
* `C122_queries` [pq] They are the entries of their profiles.
* `C122_derived` [pcq] Density, heat capacity, porosity and cold content of each layer, from its stored quantities.
* `C122_conductivity` [pcq] With the bulk method the conductivity is the mean of those of ice, water and air by volume.
* `C122_diffusivity` [pcq] Whenever the profile of the diffusivity is returned, so are those of density, heat capacity and conductivity, and in each layer diffusivity times density times heat capacity is the conductivity.

### C123 — Every process changes only what it is about

*Status:* **proved**. *Modelled from:* `cosipy/modules/heatEquation.py:solveHeatEquation`, `cosipy/modules/percolation.py:percolation`, `cosipy/modules/refreezing.py:refreezing`, `cosipy/modules/densification.py:densification`, `cosipy/modules/surfaceTemperature.py:update_surface_temperature`, `cosipy/cpkernel/cosipy_core.py:cosipy_core`.

*Method:* Frame conditions of each process by induction over its loop, composed over the stages of a step.

Remeshing, melt removal and penetrating radiation change several quantities by design and have their own claims (C02-C13, C25-C27).

* `C123_conduction` [pcq] Changes temperatures only.
* `C123_percolation` [pcq] Changes the liquid water only.
* `C123_refreezing` [pq] Leaves the thickness of every layer, and records in every layer what froze in it: the records add up to the reported amount.
* `C123_densification` [pq] Leaves temperatures and the record of refrozen water, and everything of the layers below the first so many as there are snow layers.
* `C123_surface` [pcq] The surface energy balance sets the temperature of the first layer to the surface temperature, and nothing else.
* `C123_albedo` [pq] And roughness look at the layers and change none.
* `C123_step` [pcq] The record of refrozen water at the end of a step has an entry for each layer and adds up to the reported refreezing, in the arithmetic of the program.
* `C123_run` [pcq] And at the end of every step of a run that has at least one.

### C124 — The column has no built-in thickness

*Status:* **partial**. *Modelled from:* `cosipy/cpkernel/grid.py:Grid.merge_nodes`, `cosipy/cpkernel/grid.py:Grid.correct_layer`, `cosipy/cpkernel/grid.py:Grid.log_profile`, `cosipy/cpkernel/grid.py:Grid.adaptive_profile`, `cosipy/cpkernel/grid.py:Grid.remove_melt_weq`, `cosipy/modules/percolation.py:percolation`, `cosipy/modules/refreezing.py:refreezing`, `cosipy/modules/heatEquation.py:solveHeatEquation`.

*Method:* Each operation commutes with the change of unit: equations between results (failures included) composed along the code, induction over loops and layers.

Violated by the adaptive remeshing, which merges layers up to 10 cm whatever is configured (C124_adaptive_refuted); proved for everything else. Penetrating radiation and densification have physical length scales by design and are outside the statement.

* `C124_merge` [pcq] Merging two layers.
* `C124_split` [pcq] Halving a layer.
* `C124_glacier` [pcq] Merging snow into the glacier below it.
* `C124_adjust` [pcq] Bringing a layer to a thickness.
* `C124_remesh_partial` [pcq] Remeshing with the logarithmic profile (or none).
* `C124_melt` [pcq] Removing melt: the melt is a thickness too.
* `C124_percolation` [pcq] Percolation: `l` times the water on a column of `l` times the thickness gives `l` times the runoff.
* `C124_refreezing` [pq] Refreezing.
* `C124_conduction` [pcq] Conduction is diffusive: a column of `l` times the thickness reaches the same temperatures after `l * l` times the time, by the same sub-steps.
* `C124_back` [pcq] Only the ratio of two thicknesses matters: a stretched column stretched back is the column.
* `C124_adaptive_refuted` [pcq] Doubling all thicknesses, including the configured ones, changes how many layers the adaptive method makes of a column (3 and 4): the limit of 10 cm for merging is written in the code.

### C125 — A part of the glacier is prepared as it is in the whole

*Status:* **partial**. *Modelled from:* `cosipy/utilities/aws2cosipy/aws2cosipy.py:create_2D_input`, `cosipy/utilities/aws2cosipy/aws2cosipy.py:main`, `cosipy/utilities/aws2cosipy/aws2cosipy.py:check`.

*Method:* Positions found on a sorted axis are characterised by counting; cutting commutes with the cell-wise preparation; refutation for every descending axis.

Violated for static files whose latitudes descend: the box is empty, a file without cells is written and the final check raises (C125_descending_refuted, C125_empty_refuted). Proved for ascending axes, for no radiation correction and for corrections that depend on the cell only (Wohlfahrt2016). The shading model (Moelg2009) uses the terrain of the selected part only and is outside the statement. The selection by labels is the documented behaviour of xarray and pandas. C125_checked: what the final check warns about.

* `C125_selection` [pcq] From a static file whose axes ascend, exactly the cells in the box are taken, with their coordinates; bounds belong to the box, a missing bound does not restrict it.
* `C125_parts` [pq] Two neighbouring parts: a cell is in both only if it lies on their common border, and every cell of the large part is in one of them.
* `C125_descending_refuted` [pcq] With latitudes that descend, as in rasters stored from north to south, a box with a lower and an upper bound is empty, whatever lies in it.
* `C125_part` [pcq] A part that is cut out of the static file is prepared exactly as it is in the whole glacier: the same times, and for every cell of the box (and no other) the same series, with the same coordinates.
* `C125_checked` [pcq] If any cell holds a temperature record, the check of a part of the glacier does not fail, and it warns exactly if some temperature of some cell is below 223.16 K or above 316.16 K.
* `C125_empty_refuted` [pcq] With descending latitudes the preparation succeeds with a file of no cells, and then the final check raises.

### C126 — The unit of heat does not matter

*Status:* **partial**. *Modelled from:* `cosipy/cpkernel/cosipy_core.py:cosipy_core`, `cosipy/modules/surfaceTemperature.py:eb_fluxes`, `cosipy/modules/surfaceTemperature.py:update_surface_temperature`, `cosipy/modules/secant.py:secant`, `cosipy/modules/penetratingRadiation.py:method_Bintanja`, `cosipy/modules/refreezing.py:refreezing`, `cosipy/modules/heatEquation.py:solveHeatEquation`, `cosipy/cpkernel/node.py:Node`.

*Method:* Each process is shown to give equal results (failures included) in the two units, composed along the step, induction over the run.

Violated by the Monin-Obukhov scheme, whose iteration stops at a change of 0.1 W m-2 written in the code (C126_mo_refuted: in any state with a changing flux there is a unit in which the pass is the last one and one in which it is not). Proved for everything else (C126_step_partial, C126_run_partial, C126_record). The empirical conductivity is a formula in watts by design and outside the statement. The external minimisers are assumed to be scale free; for the secant method this is proved.

* `C126_step_partial` [pcq] With all heats counted in another unit (radiation, latent and specific heats, conductivities, the radiation constant) a step leads to the same column and the same masses, temperatures and albedo, and to the same heat fluxes in the new unit.
* `C126_run_partial` [pcq] The same for simulations of any length.
* `C126_record` [pcq] What is written to the result file for a step: heat fluxes and the cold content of the layers in the new unit, everything else the same.
* `C126_mo_refuted` [pcq] The Monin-Obukhov iteration stops when the sensible heat flux changes by less than 0.1 W m-2, a number in the code (surfaceTemperature.py:356).

### C127 — The energy spent on melting is the latent heat of what melts

*Status:* **partial**. *Modelled from:* `cosipy/cpkernel/cosipy_core.py:cosipy_core`, `cosipy/cpkernel/grid.py:Grid.remove_melt_weq`.

*Method:* From the stages of a step and the exactness of melt removal (C11).

Violated when the density of water is configured other than 1000 kg m-3: the melt formula contains 1000, removal and vapour fluxes use the configured value (C127_refuted, 999 kg m-3). C127_partial: the statement holds exactly when the configured density is 1000 or nothing melts; C127_melt and C127_column give the factor, also for what the column loses.

* `C127_melt` [pcq] The mass of the melt water, times the latent heat of fusion, is the melt energy of the step times the configured density of water divided by 1000.
* `C127_partial` [pcq] The mass of the melt water is the one whose latent heat is the melt energy if and only if nothing melts or the density of water is configured as 1000 kg m-3.
* `C127_column` [pcq] In a step without vapour exchange with the ice that melts less than the column holds, the column loses (as ice, water and air together) the mass the reported energy melts, if the density of water is configured as 1000; in general that mass times the configured density of water divided by 1000.
* `C127_refuted` [pcq] A sunny hour of the example run with the density of water configured as 999 kg m-3 (its value at 16 °C): energy is spent on melting and what melts takes a thousandth less; there is no vapour exchange, so the column loses a thousandth less too.

### C128 — Melt removal is right in double precision up to the roundings

*Status:* **proved**. *Modelled from:* `cosipy/cpkernel/grid.py:Grid.remove_melt_weq`.

*Method:* Errors of a removed and of a thinned layer from those of the operations, induction over the passes of the loop; rounding error calculus of C110.

Error of the state itself: totals are exact sums of exact products of stored numbers. The relative density of a layer is taken as the program computes it. No overflow.

* `C128_loss` [pcq] If a layer is left, the column has lost the melt it was to lose: up to four roundings of its water equivalent, one rounding of the melt for each layer, and underflow.
* `C128_vanish` [pcq] If no layer is left, the melt was at least the water equivalent of the column, up to the same error.
* `C128_water` [pcq] Some layers are removed from the top, below the first that is left nothing changes, and the water handed to percolation is that of the layers removed, up to two roundings for each of them.
* `C128_loss_binary64` [pcq] Columns of up to a thousand layers: 10⁻¹² of the water equivalent and the melt.

### C129 — Logarithmic remeshing conserves the column in double precision up to the roundings

*Status:* **proved**. *Modelled from:* `cosipy/cpkernel/grid.py:Grid.log_profile`, `cosipy/cpkernel/grid.py:Grid.correct_layer`, `cosipy/cpkernel/grid.py:Grid.merge_nodes`, `cosipy/cpkernel/grid.py:Grid.split_node`, `cosipy/cpkernel/grid.py:Grid.update_grid`.

*Method:* Errors of one merge and one split, composed along the loops; number of layers plus number of changes plus twice the remaining half layers (C84) does not increase.

Error of the state itself: totals are exact sums of exact products of stored numbers. Logarithmic profile only (the adaptive profile does not conserve even in exact arithmetic, see C05). log_profile alone can leave no layer of a column of one layer (C05); update_grid then raises. No overflow.

* `C129_log` [pcq] In binary floating point, if the first layer is not too thin and the layers not too many for the format: water, ice and thickness of the column are conserved up to three roundings (one for the thickness) for each of at most `n + 10 T / f` merges and splits, where `n` is the number of layers, `T` the thickness of the column and `f` that of the first layer.
* `C129_update` [pcq] With logarithmic remeshing.
* `C129_update_binary64` [pcq] Up to a million merges and splits (a column of 1000 m with a first layer of 1 cm): 10⁻⁹ of the water, of the ice and of the thickness.

### C130 — Every program follows its own command line

*Status:* **partial**. *Modelled from:* `cosipy/config.py:get_user_arguments`, `cosipy/constants.py`, `cosipy/utilities/config_utils.py:UtilitiesConfig`, `cosipy/utilities/aws2cosipy/aws2cosipy.py:get_user_arguments`, `cosipy/utilities/wrf2cosipy/wrf2cosipy.py:get_user_arguments`, `COSIPY.py:main`.

*Method:* Induction over the command line: what each argument is taken for by either parser, and that parsing accounts for every argument.

C130_cosipy, C130_aws, C130_static, C130_wrf_partial: for options given as two arguments or with an equals sign the last value is used, else the default; negative numbers are values (C130_number). C130_borders: borders must be numbers. C130_rejected, C130_required: an unknown short option or a missing required one stops the programs that prepare input, whatever else is on the command line. Violated: run-cosipy drops options it does not know (C130_misspelt_refuted); with Slurm the workers do not see the command line and use the default files (C130_slurm_refuted; on one computer they use those given, C130_local); wrf2cosipy never shows its help (C130_wrf_help_refuted) and cannot be given constants (C130_wrf_constants_refuted), because COSIPY reads its command line on import; cosipy-help needs a readable configuration (C130_help_needs_config); the other documented commands are the installed ones (C130_commands_partial); help-cosipy is documented but not installed (C130_help_alias_refuted).

* `C130_number` [–] 
* `C130_cosipy` [–] The files that are read are those given last on the command line, and those in the directory of COSIPY otherwise.
* `C130_wrf_help_refuted` [–] The help of `wrf2cosipy` is never shown: COSIPY reads the command line first and shows its own.
* `C130_wrf_constants_refuted` [–] No command line makes `wrf2cosipy` use another configuration or other constants than the default files: the options `-c` and `-x` that COSIPY reads from the command line are rejected by `wrf2cosipy`.
* `C130_help_needs_config` [–] `cosipy-help` shows the help only where a configuration file can be read.
* `C130_misspelt_refuted` [–] COSIPY does not notice options it does not know: it runs with the files it would use without them.
* `C130_local` [–] The processes on this computer that simulate the cells read the files that the program reads.
* `C130_slurm_refuted` [–] With Slurm the cells are simulated with the default files whatever files were given on the command line: no worker sees that command line.
* `C130_rejected` [–] The programs that prepare input do not start with an option they do not know, wherever it stands.
* `C130_aws` [–] `aws2cosipy` uses the value given last for each of its options.
* `C130_required` [–] Whatever the command line, a program that prepares input starts only with the name of its input and of its output.
* `C130_borders` [–] `aws2cosipy` starts only if the borders of the part that are given are numbers.
* `C130_static` [–] `create_static_file` has one option.
* `C130_wrf_partial` [–] `wrf2cosipy` uses the value given last for each of its options, with the configuration and the constants of the directory of COSIPY, if both can be read.
* `C130_help_alias_refuted` [–] The documentation lists a command that is not installed (docs/source/documentation.rst:325).
* `C130_commands_partial` [–] Every documented command but `help-cosipy` is installed, every installed command is documented, and no name stands for two programs.

### C131 — Every setting in the configuration files has the effect it describes

*Status:* **partial**. *Modelled from:* `cosipy/constants.py:Constants.load`, `cosipy/config.py:Config.load`, `cosipy/config.py:SlurmConfig`, `cosipy/cpkernel/init.py:init_snowpack`, `cosipy/cpkernel/cosipy_core.py:cosipy_core`, `COSIPY.py:main`, `constants.toml`, `slurm_config.toml`.

*Method:* Inversion of the loading of the files key by key; files with other values in the ignored keys load to attributes that agree elsewhere, by induction over the file.

C131_constants, C131_methods, C131_switches: every number, method and switch of the files reaches the simulation as written; C131_simulated: a finished run has simulated every glacier cell with what was read; C131_offered: these are all settings of the shipped constants.toml but three. Violated: initial_snow_layer_heights, const_init_temp and saturation_water_vapour_method have no effect on any simulation (C131_ignored_refuted; C131_snow_layers_refuted: 2 cm configured, 10 cm used). C131_slurm_partial: what a run on Slurm asks for; queue, port, processes and shebang have no effect (C131_slurm_refuted). That a setting reaches the computation does not say that results depend on it for every input; C112 says which settings matter for which methods.

* `C131_constants` [pcq] For every pair of files that loads: each number of constants.toml is, in the simulation, the number that stands in the file (the last one, if the key occurs more than once); so are `max_layers` and `merge_max`.
* `C131_methods` [pq] A method named in constants.toml is the one the simulation uses; a name that is not known is no known method (and an error or no remeshing, where it is used).
* `C131_switches` [pcq] In a configuration whose keys are distinct and stand in their own table, for a run that is not coupled: full fields, the forced use of precipitation and clouds and the stake evaluation are on exactly if the file says so.
* `C131_offered` [p] The settings offered in the shipped constants.toml are the numbers and methods of the tables above, `max_layers`, `merge_max`, and three more.
* `C131_ignored_refuted` [pcq] Whatever values `initial_snow_layer_heights`, `const_init_temp` and `saturation_water_vapour_method` are given, in any files, every simulation of any domain with any input gives the same results, or fails in the same way.
* `C131_simulated` [pcq] If a run with its two files finishes, the files have been read, and every glacier cell has been simulated with the constants and settings read from them, on its own data.
* `C131_slurm_partial` [pcq] For every Slurm file that loads, with distinct keys in their own tables: name, account, further parameters, directory and cores of the jobs are those of the file.
* `C131_slurm_refuted` [pcq] Whatever queue, port, number of processes and shebang the file asks for, the request is the same.
* `C131_snow_layers_refuted` [pcq] With snow layers of 2 cm configured and 20 cm of snow the simulation starts with two snow layers of 10 cm, as with the shipped value 10 cm.

### C132 — Penetrating radiation conserves the mass of the layers it thins in double precision up to the roundings

*Status:* **proved**. *Modelled from:* `cosipy/modules/penetratingRadiation.py:method_Bintanja`, `cosipy/cpkernel/grid.py:Grid.remove_node`.

*Method:* The layer loop as a relation for any arithmetic; error calculus of C110 along the two paths; the melt is bounded by the ice since the height loss is below one.

Totals are exact sums of exact products of stored numbers. The mass of the removed layers, which the code drops (C27), is added back. Ice must not be denser than water. No overflow.

* `C132_layers` [pcq] Every layer but the last is removed or kept with its ice fraction, no thicker than before and still with a thickness; the mass of a kept layer, ice and water together, changes by no more than nine roundings, and underflow.
* `C132_mass` [pcq] The mass of the column, with that of the removed layers added, changes by no more than nine roundings, and underflow, however many layers there are.
* `C132_binary64` [pcq] With the shipped constants, for columns of up to a thousand layers and a thousand metres: 2·10⁻¹⁵ of the mass.

### C133 — Only the distance from the melting point counts in the column

*Status:* **partial**. *Modelled from:* `constants.toml:zero_temperature`, `cosipy/cpkernel/grid.py:Grid`, `cosipy/cpkernel/init.py:init_snowpack`, `cosipy/modules/refreezing.py:refreezing`, `cosipy/modules/penetratingRadiation.py:method_Bintanja`, `cosipy/modules/heatEquation.py:solveHeatEquation`, `cosipy/modules/densification.py:densification`, `cosipy/cpkernel/cosipy_core.py:cosipy_core`.

*Method:* Every operation commutes with the shift, by the framework of C124 (loops by induction over their passes); violations by injectivity of the exponential and by evaluation over the reals.

C133_initial, C133_snowfall, C133_remesh, C133_merge, C133_split, C133_glacier, C133_albedo, C133_phase, C133_penetrating, C133_depths, C133_melt, C133_percolation, C133_conduction: results of the shifted column are the shifted results, failures included; C133_refreezing for a warmer column (the code rejects temperatures below absolute zero). Violated: Vionnet's densification uses 273.14 (C133_vionnet_refuted, any loaded layer and any shift), the computed density of fresh snow uses 273.16 (C133_freshdensity_refuted); C133_densification_partial and C133_freshdensity_partial cover the other methods. The surface energy balance depends on absolute temperatures (longwave emission, saturation vapour pressure) and is not part of the claim.

* `C133_merge` [pcq] Merging two layers.
* `C133_split` [pcq] Halving a layer.
* `C133_glacier` [pcq] Merging snow into the glacier below it.
* `C133_remesh` [pcq] Remeshing with any method.
* `C133_melt` [pcq] Removing melt.
* `C133_percolation` [pcq] Percolation.
* `C133_refreezing` [pcq] Refreezing.
* `C133_conduction` [pcq] Conduction, by the same sub-steps.
* `C133_penetrating` [pcq] Penetrating radiation: the same melt below the surface.
* `C133_depths` [pq] The temperatures at the two depths used for the ground heat flux.
* `C133_albedo` [pcq] The albedo of a surface, with any method.
* `C133_phase` [pcq] The solid share of the precipitation and the vapour fluxes.
* `C133_snowfall` [pcq] Fresh snow of a given density falling on the column.
* `C133_densification_partial` [pcq] Densification by the methods other than Vionnet's.
* `C133_freshdensity_partial` [pcq] The density of fresh snow when it is configured.
* `C133_initial` [pcq] The initial column.
* `C133_back` [pq] Shifting back gives the column again.
* `C133_vionnet_refuted` [pcq] Vionnet's densification compacts every loaded layer at another rate when the melting point and all temperatures are raised by the same amount: `273.14` is written in the code.
* `C133_freshdensity_refuted` [pcq] The density of fresh snow computed from the air temperature changes by 6 kg m-3 per degree when the melting point is moved with the air temperature: `273.16` is written in the code.

### C134 — The sun belongs to the time of the record

*Status:* **partial**. *Modelled from:* `cosipy/utilities/aws2cosipy/aws2cosipy.py:create_2D_input`, `cosipy/modules/radCor.py:correctRadiation`, `cosipy/modules/radCor.py:calcRad`, `cosipy/modules/radCor.py:LUTshad`.

*Method:* Day of the year by the cycles of the Gregorian calendar against a count of days that is characterised by its recurrence over the years (linear integer arithmetic); intervals of C64; positions of the sun of C62 over the reals.

C134_calendar: the day of the year is right for every date. C134_full_hours_partial, C134_moelg_used: at full hours the sun of the record (Wohlfahrt2016) or of the middle of the step before it (Moelg2009) is used. Violated: minutes are dropped (C134_minutes, C134_same_hour, C134_sunrise_refuted); aggregated values get the sun at the beginning of the interval (C134_interval), so for daily values slope and aspect have no influence (C134_daily_refuted); with Moelg2009 the sun is a whole step before the middle of the interval (C134_moelg_refuted). Whether the position is right for the given hour is C62; the shading table for other steps is C91.

* `C134_calendar` [pcq] However far from the present: at any second of the (k+1)-th day of a year the day of the year is k + 1.
* `C134_minutes` [pcq] The sun used for a record is that of the last full hour: between 0 and 1 hours before the record, and exactly at the record if it was taken at a full hour.
* `C134_same_hour` [pq] All records of an hour get the same sun, and of a day the same day, in any arithmetic: equal values are corrected equally.
* `C134_full_hours_partial` [pcq] Records at full hours: the radiation written for a glacier cell is the measured one corrected for the sun at the time of the record.
* `C134_sunrise_refuted` [pcq] On the equator at half past six on any day: the sun of the record has risen, the sun used stands exactly on the horizon.
* `C134_interval` [pcq] With a step of whole hours that divides the day the sun used for an aggregated value is that at the beginning of the interval: before every record in it, by up to one step.
* `C134_daily_refuted` [pcq] Station data aggregated to days: outside the zone of the midnight sun, and with a threshold of at most 90°, slope and aspect of a cell have no influence; every cell gets the radiation of the station.
* `C134_moelg` [pcq] The sun used for a time stamp is the one half a step earlier: the middle of the step that ends there.
* `C134_moelg_shade` [pcq] The table of shadows is filled for the same sun when the step is an hour.
* `C134_moelg_used` [pcq] The radiation of a record is computed with that hour angle and the row of its day.
* `C134_moelg_refuted` [pcq] Aggregated station data with the aggregation step as the step of the module: the values of a time stamp belong to the step after it, its sun to the middle of the step before it.

### C135 — Cold comes only from outside

*Status:* **proved**. *Modelled from:* `cosipy/cpkernel/cosipy_core.py:cosipy_core`, `cosipy/modules/heatEquation.py:solveHeatEquation`, `cosipy/modules/refreezing.py:refreezing`, `cosipy/cpkernel/grid.py:Grid.merge_nodes`, `cosipy/cpkernel/grid.py:Grid.add_fresh_snow`, `cosipy/modules/penetratingRadiation.py:method_Bintanja`.

*Method:* Lower bound of the temperatures through every stage of a step (C21 for conduction, C26 for radiation), with the minimum of the entering temperatures as bound; chained over the steps.

Exact arithmetic. C59 gives the bound of the solver and of the coldest air; here the bound is what was simulated. For the method constant without an assumption on compaction and in every exact ordered field. C135_surface: the surface temperature cannot be left out.

* `C135_run_constant` [pcq] With the densification method `constant`, in every exact arithmetic and over any forcing sequence, every layer is at least as warm as some layer of the initial column, some simulated surface temperature or the air of some record with snowfall.
* `C135_step` [pcq] For every densification method, every layer after a step is at least as warm as some layer before it, as the simulated surface temperature or, if snow fell, as the air.
* `C135_run` [pcq] For every forcing sequence of any length in which compaction never uses up a whole layer: every layer is at least as warm as some layer of the initial column, some simulated surface temperature or the air of some record with snowfall.
* `C135_surface` [pcq] Without snowfall and with air at 272 K over a column of at least 268 K, one step with a surface temperature of 250 K leaves a layer below 260 K.

### C136 — The mass budget of a time step holds in double precision

*Status:* **proved**. *Modelled from:* `cosipy/cpkernel/cosipy_core.py:cosipy_core`, `cosipy/cpkernel/grid.py:Grid.log_profile`, `cosipy/cpkernel/grid.py:Grid.update_grid`, `cosipy/modules/penetratingRadiation.py:penetrating_radiation`, `cosipy/modules/percolation.py:percolation`, `cosipy/modules/refreezing.py:refreezing`, `cosipy/modules/heatEquation.py:solveHeatEquation`.

*Method:* The rounding bounds of the single processes (C110, C129, C132) with the fields each process leaves alone (C123) and the signs of C81 and C115, chained over the stages of a step.

Binary64 without overflow, exact totals of the stored numbers. What removal by melt takes enters as the difference of the two totals; C128 bounds it against the demand. Columns before radiation and after melt must have at most 1000 layers and 1000 m, no layer of zero thickness after melt and no layer colder than the latent heat allows (the shipped constants: 200 K suffices, C110).

* `C136_interior` [pcq] Percolation, refreezing and conduction.
* `C136_step` [pcq] A step in double precision, with logarithmic remeshing: there are a layer of fresh snow (or none), a top layer too thin to be kept (or none) and the layers used up by penetrating radiation (none without sun), such that the mass of the column before densification and the runoff are, up to 2·10⁻⁹ of the masses involved, the mass before, the fresh snow and the water given to percolation, less those layers and what the removal of melt takes from the column.
* `C136_constant` [pcq] At constant density the column of `C136_step` is the one the step returns, and that no layer is left with thickness zero and the size of the column can be read off there.
* `C136_run` [pcq] In double precision, at constant density, the mass of the column after any number of steps is the initial mass plus what came minus what went, up to 2e-9 of the turnover.

### C137 — Maps show what was asked for, and the installed commands start

*Status:* **partial**. *Modelled from:* `cosipy/postprocessing/field_plots/plot_cosipy_fields.py:main`, `cosipy/postprocessing/field_plots/plot_cosipy_fields.py:plot_data`, `cosipy/postprocessing/field_plots/plot_cosipy_fields.py:plot_axes`, `cosipy/postprocessing/field_plots/plot_cosipy_fields.py:get_selection`, `pyproject.toml:project.scripts`, `cosipy/config.py:print_entry_points`.

*Method:* The program from parsed arguments to the fields handed to matplotlib; the figures are restated as tables of names. The shape of every variable of a written result file follows from the model of the writer (C46, C85); commands by evaluation of the tables, the filter of names by the characterisation of sublists.

Proved for every file: what is drawn, where and under which name (C137_shown); every variable over time and space can be drawn (C137_drawn), and after a run with the shipped output lists the whole figure (C137_run). Refuted: MASK, SLOPE and ASPECT of the result file cannot be drawn, nor can variables of layers (C137_static_refuted); the installed command cosipy-plot-profile names a function that does not exist (C137_profile_refuted; the others start, C137_start_partial). That a module imports without error is not modelled. Means: C92.

* `C137_shown` [–] Whatever is drawn, of any file: with a variable given one panel that shows it, otherwise the figure of the chosen type with every variable in its place.
* `C137_drawn` [–] In every distributed result file with an elevation, every variable over time and space is drawn for every record, in both types.
* `C137_run` [–] With the shipped output lists, and radiation and elevation in the input, the figure with several panels is drawn for every record of the result file, in both types.
* `C137_static_refuted` [–] The glacier mask, the slope and the aspect are in the result file with their labels, but asking for one of them always fails, whatever time is given, as does any other variable without time.
* `C137_start_partial` [–] Full statement: every installed command starts.
* `C137_profile_refuted` [–] The installed command `cosipy-plot-profile` names a function `main` that its module does not have.
* `C137_listed` [–] `cosipy-shortcuts` prints a command of any package if and only if its name contains `cosipy` or begins with `COSIPY`; hence all commands of this package.

### C138 — Switches act when they are given, and only then

*Status:* **partial**. *Modelled from:* `cosipy/utilities/setup_cosipy/setup_cosipy.py:get_user_arguments`, `cosipy/utilities/setup_cosipy/setup_cosipy.py:main`, `cosipy/postprocessing/field_plots/plot_cosipy_fields.py:parse_arguments`, `cosipy/postprocessing/vtk_plots/plot_cosipy_fields_vtk.py:parse_arguments`.

*Method:* argparse with options that store true, including several letters behind one dash, on top of the model of C130. Invariant over the loop that consumes the arguments: every action comes from an argument that asks for it; induction over the grammar of documented lines for the converse; the three commands by evaluation of their tables.

Proved for every command line: C138_switch, C138_required, C138_consent; for lines with the documented names: C138_line, C138_missing, C138_needed, C138_leftover, C138_help, C138_setup, C138_setup_help, C138_field, C138_vtk. Refuted: cosipy-plot-vtk documents -n/--name as required, but accepts every line without it (C138_vtk_refuted). argparse is modelled as in CPython 3.11.

* `C138_switch` [–] Whatever the command line: a switch is set only if one of the arguments asks for it, by its name, an abbreviation of it, or its letter behind a single dash.
* `C138_required` [–] If a command line is accepted, every required option was given.
* `C138_line` [–] For every parser of this kind: a command line of known switches, and options with convertible values, that has all required options is accepted, and every switch and value is taken as it is given.
* `C138_missing` [–] A documented command line without one of the required options is rejected.
* `C138_leftover` [–] An argument that neither belongs to an option nor names one, after documented ones, stops the program, whatever follows.
* `C138_help` [–] A documented command line with a request for help anywhere shows the help, and does nothing else, whatever is missing.
* `C138_consent` [–] From any command line: an existing file changes only if an argument asks for overwriting or the user agrees to it at the prompt, and only the four configuration files of the target directory change.
* `C138_setup` [–] 
* `C138_field` [–] File, date, variable and type are the last ones given, the switches are set if they are given, the type is 1 unless given.
* `C138_vtk` [–] The same for the program that draws the surface.
* `C138_needed` [–] Without a file, or without a date or time, nothing is drawn.
* `C138_vtk_refuted` [–] Cosipy-plot-vtk documents its variable as required, but every command line with a file and a time is accepted without it.
* `C138_setup_help` [–] With `-h` or `--help` among the documented arguments nothing is copied and nothing is asked.

### C139 — The printed column is the column

*Status:* **partial**. *Modelled from:* `cosipy/cpkernel/grid.py:Grid.info`, `cosipy/cpkernel/grid.py:Grid.grid_info`, `cosipy/cpkernel/grid.py:Grid.grid_info_screen`.

*Method:* The printers as functions from the column to the rows printed so far and the exception, if any. What a name of a column promises is stated separately; rows by induction over the loop, the depth by induction over the number of layers, for every arithmetic.

grid_info_screen and info in full (C139_screen, C139_rows, C139_total). Refuted for grid_info: it prints nine values under ten names, so from "LW [m]" on every value stands under a wrong name (C139_info_refuted); C139_info_partial says which values they are. How numbers become text is not modelled.

* `C139_screen` [pcq] Every printed row belongs to the layer with its number, and holds under every name what the name promises.
* `C139_info_partial` [pcq] The values and their order; the second of the names below is missing from the row.
* `C139_info_refuted` [pcq] Whatever the column: no row has as many values as there are names, and under "LW [m]" stands the cold content.
* `C139_rows` [pcq] If the retention of every layer is defined and the counter is right: by default all layers are printed, from the surface down; a number asks for that many layers; more than there are end with an IndexError after all of them, a negative number prints none.
* `C139_total` [pcq] The reported depth is the sum of the heights of all layers, from the surface down, as is `get_total_height`.

## 3. Trusted base

* Lean 4.33.0 kernel; Mathlib definitions of ℝ, `Real.exp`, `Real.cos` etc.
* Axioms: only `propext`, `Classical.choice`, `Quot.sound` (per theorem above). No own axioms, no `sorry`, no `native_decide`/`bv_decide`.
* The faithfulness of the model to the Python text (by hand; every definition cites its lines), including the stated behaviour of
  numba/numpy/pandas/xarray primitives.
* That the statements say what the properties mean: they use the vocabulary in `Verif/Spec/` and the model functions that correspond to
  the API, not the model's helpers.

### 3.1 What is modelled, and from where

| model file | source | content |
|---|---|---|
| `Num.lean` | numpy/numba primitives used in `grid.py`, `cosipy_core.py` | exceptions, wrapping indices, `while` on fuel, division that raises, `min/max/abs/sum` |
| `Consts.lean` | `constants.toml`, `cosipy/constants.py` | all constants, method selectors, shipped defaults |
| `Node.lean` | `cosipy/cpkernel/node.py` | the whole class (getters, setters, derived quantities) |
| `Grid.lean` | `cosipy/cpkernel/grid.py` | the whole class but printing: layer access, merging, splitting, correcting, both re-meshing schemes, melt removal, fresh-snow tracking |
| `Accessors.lean` | `cosipy/cpkernel/grid.py` | queries of single layers, remaining profiles, setters of profiles (C122) |
| `GridInfo.lean` | `grid.py:969-1036` | names of the columns and rows of values that `info`, `grid_info` and `grid_info_screen` print; not the text of numbers |
| `Percolation`, `Refreezing`, `Heat`, `Penetrating`, `Densification`, `Albedo` (with roughness) | `cosipy/modules/*.py` of the same names | every scheme that can be selected |
| `SurfaceTemp.lean`, `Secant.lean` | `surfaceTemperature.py`, `secant.py` | flux computation, both stability schemes, solver dispatch and fall-back; `scipy.optimize` is a parameter `Solvers` |
| `Divisions.lean` | `surfaceTemperature.py` | the flux computation again with every division checked (C119) |
| `Init.lean` | `cosipy/cpkernel/init.py`, restart parts of `cosipy_core.py`/`io.py` | initial column, loading a column, restart arrays |
| `Core.lean` | `cosipy_core.py` | one time step and the time loop |
| `Select.lean`, `Stake.lean` | `cosipy_core.py`, `evaluation.py` | input selection per cell, stake evaluation |
| `Kernel.lean` | `cosipy_core.py` | arrays filled by the time loop, return tuple, coupled mode |
| `IO.lean`, `Input.lean` | `cosipy/cpkernel/io.py`, `COSIPY.py` | result/restart arrays and datasets, copying of cell results, input checks, time selection |
| `Program.lean` | `COSIPY.py` (`main`, `run_cosipy`), `io.py` | the program as a whole: settings → files |
| `Config.lean`, `Setup.lean`, `Utilities.lean` | `cosipy/config.py`, `constants.py`, `setup_cosipy.py`, `convert_config.py`, `config_utils.py` | configuration parsing and corrections, generated files, conversion |
| `CommandLine.lean` | `cosipy/config.py`, `constants.py`, `config_utils.py`, `aws2cosipy.py`, `wrf2cosipy.py`, `create_static_file.py`, `pyproject.toml` | which options each program reads, argparse of CPython 3.11 for options that store a value, `-h`, abbreviations, `=`, `--`, unknown arguments; subcommands and positional arguments do not occur; the plotting programs are left out |
| `Switches.lean` | `setup_cosipy.py`, `plot_cosipy_fields.py`, `plot_cosipy_fields_vtk.py` | argparse of CPython 3.11 for options that store a value or true, several letters behind one dash, and the arguments of these three commands; texts of usage and help are not modelled |
| `Loaded.lean` | `COSIPY.py`, `cosipy/constants.py`, heads of the modules, `constants.toml`, `slurm_config.toml` | the settings that reach a simulation and a Slurm job; all constants are read at once, values of the wrong type are refused there; standalone runs only |
| `TextTime.lean` | `wrf2cosipy.py`, `io.py` | time labels as text and the period selected from them (C120) |
| `Preprocess.lean` | `aws2cosipy.py`, `wrf2cosipy.py`, `create_static_file.py` | unit conversions, gap filling, aggregation, masks |
| `StaticFile.lean` | `create_static_file.py` | `main` as a function on file systems; gdal, richdem and xarray are parameters |
| `RadCor.lean` | `radCor.py` | sun position, radiation on slopes, shading tables, sky view, great-circle distance |
| `Shading.lean` | `radCor.py`, `aws2cosipy.py` | terrain shading by ray tracing (`relshad`), look-up tables, `calcRad`, its use on a domain |
| `RecordTime.lean` | `aws2cosipy.py` | day of the year and hour of a time stamp, the radiation modules as used per record |
| `Result.lean` | `io.py` | attributes, labels and coordinates of the result file |
| `Prepared.lean` | `aws2cosipy.py`, `wrf2cosipy.py` | coordinates, labels and warnings of prepared input files |
| `SubArea.lean` | `aws2cosipy.py` | selection of a sub-area by coordinates and its preparation |
| `Maps.lean` | `plot_cosipy_fields.py`, `plot_cosipy_fields_vtk.py`, time axis of `plot_profiles.py` | mesh points and colours, selection of a time, daily means, file names, label positions; the closest-point search of VTK is a parameter |
| `FieldPlot.lean` | `plot_cosipy_fields.py`, `pyproject.toml`, `print_entry_points` of `config.py` | from parsed arguments to the titles, units and fields handed to matplotlib, and the file name; which function each command calls and whether its module defines it |
| `StakeFiles.lean` | COSIPY.py (stakes) | stake inputs of the cells, the two CSV files |
| `Profile.lean` | `plot_profiles.py` | values looked up at a depth or height, nearest grid point |
| `Real.lean`, `RealTrig.lean` | — | instances of the operation classes for ℝ |
| `Float.lean` | — | rounded arithmetic over an ordered field; binary floating point, round to nearest even, with subnormal numbers |

### 3.2 What is not modelled

* Floating-point rounding in the numeric theorems other than C81-C84, C100, C109, C110, C115, C128, C129 and C132 (structural theorems hold for any arithmetic, so also for
  doubles). Overflow, infinities and the sign of zero also in C81; there, elementary functions are only assumed to keep the bounds
  `0 ≤ exp x` and `exp x ≤ 1` for `x ≤ 0`.
* NaN in numeric theorems. In structural theorems NaN is just another value of `α`.
  `Model/Nan.lean` (numbers with NaN, no infinities) is used for C90_nan, C95 and C96.
* printing (when the self-checks print is in `Model/Checks.lean`), logging, progress bars, plotting (of `cosipy/postprocessing` only the data shown, see `Profile.lean`, `Maps.lean` and `FieldPlot.lean`), the VTK pipeline.
* Encoding of NetCDF (types, compression; attributes and labels are those of C85/C86), CSV formatting, parsing of TOML text
  (a loaded file is a table of values), the parser of date strings (a parameter with stated behaviour).
* dask/SLURM: a schedule is an arbitrary permutation of finished cells; worker crashes are an exception of that cell.
* numba compilation: the code is read with Python semantics plus numba's typed-list and division rules.
* `scipy.optimize.newton/minimize`: arbitrary functions; theorems that need more name it (`RespectsLower`, `ExactMin`, `Solvers.Halt`).
* GDAL/rasterio/geopandas/xesmf calls in `create_static_file.py`, `salem`/`richdem`.
* Division by zero where the divisor is a configured constant (densities, latent heats, time scales, depths) or, in `SurfaceTemp.lean`, a quantity
  of the flux formulas: these divisions are plain `/`. The code raises ZeroDivisionError or gives NaN. `Divisions.lean` and C119 say when this happens in the fluxes.
* Memory, running time, parallel file access.

## 4. Disagreements found between code and stated or expected behaviour

Each entry is backed by a theorem (named) about the model unless it says *(read only)*.

**Column and snow physics**
* C06 – merging can exceed `merge_max` by one (`C06_merge_limit_exceeded`).
* C07 – `log_profile` does not stop for `layer_stretching < 1` with thick columns; C23 – two adjacent zero-height layers make heat conduction loop for ever.
* C08 – `correct_layer` copies water without regard to the new height and oversaturates layers; a wet top layer can then count as ice.
* C09 – the top layer can end thicker than `first_layer_height`.
* C10 – `split_node` loses liquid water; negative indices insert at the wrong place: counted from the bottom the new half is what is halved, so the column grows by a quarter of the layer (C10_negative_grows).
* C13 – melt counts liquid water of removed layers twice; C14 – the fresh-snow tracker is not reduced by melt.
* C25 – the energy of penetrating radiation uses mid-depths, the share below the last layer is dropped.
* C89 – merging and conduction do not keep the heat of a column in which density varies: snow on ice loses 180 kJ/m² in half an hour with closed ends, and 320 kJ/m² when the layers at the interface are merged.
* C27 – subsurface melt is under-reported whenever a layer thins.
* C28 – Boone compaction changes mass; the overburden counts a layer twice; Vionnet passes degrees to a cosine in radians.
* C30 – Bougamont albedo: the step length in days multiplies the time scale; with shipped constants and hourly steps the albedo leaves every bound.
* C32 – given snowfall larger than RRR creates water.
* C33 – condensation is not part of the surface mass balance.
* C35 – the stability factor jumps at a bulk Richardson number of 0.01.
* C36 – the secant iteration returns silently when it did not converge.
* C38 – the sub-surface temperature wraps to the lowest layer for shallow depths and raises IndexError for deep ones.
* C39/C40 – densities are stored as ice fractions including air: the reported density exceeds the requested one.
* C41 – snow height with an ice lens is not the height of the snow.
* C58 – mass terms that leave the budget: thin layers dropped, compaction, pore air counted as melt, vapour not taken from the column.
* C59 – Boone compaction can give a negative layer height.
* C20 – the coded cold-content limit has the wrong sign but is never active.
* C73 – the fall-back of the surface-temperature solver minimises the signed residual and so answers the melting point; below 220 K the missing energy is dropped.

**State, restart, files**
* C43 – standalone restart files carry other names than the loader reads: AttributeError.
* C44 – the state of the Bougamont albedo is not saved.
* C47 – the default full-field list raises KeyError; names given in the wrong list are all-NaN; names after `", "` are not stripped.
* C49 – a key repeated in a later table defeats the corrections for coupled mode.
* C50 – slope bounds are swapped, and the check always returns True.
* C51 – time labels are sorted, records are not; quoted restart times never match.
* C57 – unsupported input combinations raise TypeError, AttributeError or UnboundLocalError rather than the documented ValueError.
* C60 – after a restart stake balances count from zero.
* C61 – generated `utilities_config.toml` has no `LUT_path`; the converter cuts output prefixes. It writes `None` as 0 (convert_config.py:49-50): from an old `radiationModule = None`, which aws2cosipy takes as no correction (aws2cosipy.py:614-617), aws2cosipy then stops with a ValueError.
* C65 – no form of the time settings lets a restart finish.
* C66 – two halves of one day share a result file; restart files carry no prefix.
* C67 – tiles work only for dimensions named lat/lon.
* C68 – stakes anywhere on the globe are attached to some cell.
* C71 – the result is written in place: a crash while writing loses the previous file; one failing cell loses the whole run.
* C72 – coupled calls simulate only the first record handed over; seven output variables are None.
* C79 – `merge_snow_with_glacier` (not called anywhere) drops the liquid water of the ice and the temperature of the snow, and changes the mass over porous ice.
* C46 – a domain without glacier cells gives files without variables.
* C45 – the row order of the stake statistics depends on the schedule.
* C74 – Monin-Obukhov: the friction velocity turns negative in strongly unstable air (the correction at the measurement height is subtracted from the logarithm, which it can exceed), and the one at the roughness height is subtracted a second time instead of added in the transfer coefficients.
* C90 – `remove_melt_weq` tests `melt < SWE` and `melt >= SWE` in turn; if the uppermost layer is NaN neither holds and the loop never ends.
* C91 – the shading table of a year cannot be built with a step of five hours (the last write is outside the table) or under one hour (ZeroDivisionError).
* C85 – the attributes of the result file omit several constants (thermal conductivity, surface temperature method, depths of the bottom heat flux, ageing of albedo); absent RRR and N get units and description swapped; LAYER_LWC is labelled kg m^-2 but is a fraction.
* C88 – `plot_profiles.py` shows the value of the layer above for the upper half of every layer.
* C92 – a map of daily means for a time from noon on shows the following day; `createDEM_v2` (not called) builds a wrong mesh; the label positions of `plot_profiles.py` assume hourly records; a stake measurement at the first record is not drawn; 2009-1-11 and 2009-11-1 give the same file name.
* C93 – a stake whose nearest cell is no glacier cell has its own measurements in `stake_simulations.csv`, as if the model had hit them exactly.
* C94 – the reported mass balance is not the change of the ice: frost is reported and never laid down, evaporation is reported and never taken, liquid water and pore air in removed layers count as melted ice, a part of the snowfall becomes air, thin layers vanish, subsurface melt is under-reported, densification destroys ice.
* C96 – a missing (NaN) global radiation, longwave radiation or cloud cover is not noticed by a time step: `max(0, NaN)` is 0, no melt is reported and the balance is an ordinary number. Standalone runs check their input before; the time step itself and coupled runs do not. A NaN answer of the surface temperature solver becomes the melting point (C95_solver).
* C97 – the messages "Merging is not mass consistent", "Correct layer is not mass consistent" and "Fraction > 1" can never appear for a failure of the fractions: the third fraction is defined as 1 minus the other two (grid.py:217, 335-336, node.py:170-176), so the sum is 1 for any fractions, e.g. ice fraction 2. `grid_check`, called before every step, is empty (grid.py:1038-1051). `check_layer_property` (uncalled) would end in `os._exit()` without its argument, a TypeError.
* C98 – nothing compares the time axis of the input with the configured `dt` (io.py:262-329, cosipy_core.py:73): three-hourly or irregular input is simulated as if it were hourly, and the result carries the original time stamps.
* C99 – the glacier loop of `log_profile` merges layer `idx-1` with `idx` also for the first glacier layer (grid.py:421-423): a glacier thinner than the next layer height is mixed into the lowest snow layer and becomes snow.
* C101 – `log_profile` is not idempotent: after a merge `idx` moves past the merged layer (grid.py:396-399, 421-423), so leftover layers are merged in pairs only, and further in each later call.
* C104 – the stability factor of the Richardson scheme jumps at 0.01 (surfaceTemperature.py:375-379): there is weather with two balanced surface temperatures, where the one reported depends on the surface temperature of the step before, and weather with none.
* C106 – the lowest layer is drained completely whatever it could hold (percolation.py:67-88): the runoff depends on how thick the lowest layer is.
* C107 – the surface temperature is imposed on the whole top layer (surfaceTemperature.py:119), whatever heat that takes: the column gains or loses heat that no flux accounts for.
* C108 – the load on a snow layer is the weight above plus half the top layer (densification.py:138-142, 205-210); a layer of at most the minimum height hides the layer above it from all layers below.
* C111 – the answer of the secant or Newton iteration below 220 K is rejected, and the fall-back minimises the signed balance, not its absolute value (surfaceTemperature.py:87-108, 533-554): the melting point is reported, and slightly more sun makes the surface 53 K colder.
* C112 – `albedo_mod_snow_aging`, the time scale of the Oerlemans albedo, also takes effect with the Bougamont albedo (albedo.py:96-130 is shared): it decides whether the age of a melted snowfall or of the older snow counts.
* C114 – after refreezing a layer below the melting point is still below it and may still hold water (refreezing.py:153-166): the limit of the amount counts the cold of the ice only, while the latent heat warms ice and remaining water. The cold is never used up in one step.
* C115 – Boone and Vionnet compaction multiply the ice fraction by a factor without a limit (densification.py:150-164, 219-233), so that a layer can hold more ice than its volume; for hourly steps only under loads that do not occur, for daily steps under 30 m of fresh snow.
* C117 – penetrating radiation is divided at the middles of the layers, not at their faces: layer i gets what is extinguished between the middle of layer i-1 and its own middle (penetratingRadiation.py:62-71 with grid.py `get_depth`). The first layer gets less than its share, and the part that passes the middle of the last layer but one is subtracted from the surface balance and given to no layer.
* C119 – in the Monin-Obukhov scheme over a surface warmer than the air the divisor `log(z/z0) - phi_m(z, L)` of the friction velocity (surfaceTemperature.py:515-518) takes the value zero for some wind speed; next to it the friction velocity is arbitrarily large. (In doubles an exact zero is rare; the exception then ends the program, C71.)
* C124 – the adaptive remeshing merges similar layers only up to a thickness of 0.1 m, which is written in the code (grid.py:460) next to configured thresholds for temperature, density and number of merges: doubling all thicknesses including the configured ones gives another number of layers.
* C126 – the Monin-Obukhov iteration stops when the sensible heat flux changes by less than 0.1 W m-2 (surfaceTemperature.py:356), an absolute limit in the code: small fluxes stop it after the second pass, whatever the relative change. The number of passes depends on the unit of heat.
* C127 – the melt in m w.e. is the melt energy over `1000 * lat_heat_melting` (cosipy_core.py:354), all other conversions use the configured water_density: with another density the column loses water_density/1000 of the mass the melt energy pays for.
* C131 – `initial_snow_layer_heights` ("Initial thickness of snow layers") and `const_init_temp` ("constant for init temperature profile used in exponential function") are only copied into the attributes of the result (io.py:481, 487); init_snowpack uses layers of 10 cm, at most five (init.py:45-46), and a linear temperature profile. The attributes therefore describe an initial column that was not used. Unknown values of `saturation_water_vapour_method` only print a note (surfaceTemperature.py:233-240). Of slurm_config.toml, `queue`, `port`, `processes` and `shebang` are never passed on (COSIPY.py:80-88; `processes=SlurmConfig.cores`).
* C133 – `zero_temperature` is a setting, but Vionnet's densification uses 273.14 (densification.py:203) and the density of fresh snow 273.16 (cosipy_core.py:241). With another melting point the processes disagree about it; with the shipped 273.16 Vionnet's viscosity is off by 0.02 degrees.

**Preprocessing**
* C53 – relative humidity of exactly 0 passes; order is not kept.
* C54 – point input: reducing the pressure to sea level and raising it again uses different exponents, so a station not at sea level gets another pressure than it measured.
* C55 – glacier mask: with land-use class 0 every cell becomes a glacier cell; a bucket reset gives negative precipitation.
* C56 – negative direct radiation on slopes facing away from the sun.
* C62 – longitude and time zone cancel in the sun position; the azimuth has a misplaced parenthesis.
* C63 – steps that do not divide the day read the wrong table entry; ValueError beyond the polar circles.
* C77 – Moelg2009: the radiation jumps at cloud fraction 0 (two different formulas on the two sides); the transmissivity for Rayleigh scattering exceeds 1 at sea level with a low sun.
* C78 – shading raises ValueError if the domain file has latitudes from north to south, and can raise for cells next to the border; border cells are never shaded; in the first hours of a day with a clock ahead of the sun the sun is mirrored.
* C82 – with layers below a nanometre the heat conduction never returns in double precision (the elapsed time stops growing).
* C86 – the 1-D branch of aws2cosipy with WRF dimensions swaps latitude and longitude; cloud cover is labelled % and WRF temperature m.
* C87 – aws2cosipy and wrf2cosipy accept temperatures, pressures and longwave radiation the simulation complains about.
* C64 – forward fill repeats precipitation; the 660 hPa default is never reached.
* C102 – `create_static_file.main` ignores the exit status of `os.system` and does not remove leftovers first (create_static_file.py:123-151): after a failed run a wrong DEM path goes unnoticed and the old terrain is written. A DEM or other file named `dem.nc`, `mask.nc`, `slope.nc`, `DEM_temp.tif`, `DEM_temp2.tif` in the static folder is overwritten and deleted.
* C116 – the precipitation lapse rate is added in every hour, also when the station records none, so that with a positive lapse rate it never stops raining above the station (aws2cosipy.py:159-178, 576-590). The same amount is added in drizzle and in a storm, while utilities_config.toml:55 calls the snowfall lapse rate a percentage per metre.
* C120 – wrf2cosipy writes times as text `YYYY-mm-ddTHH-MM` (wrf2cosipy.py:56) and the period of the configuration, `YYYY-mm-ddTHH:MM`, is compared with it as text (io.py:315). `-` sorts before `:`, so the record of `time_start` is left out and the whole hour of `time_end` is included. For the same reason `-e yyyy-mm-dd` of wrf2cosipy leaves out that day; aws2cosipy keeps it. (Read only: io.py:285-288 reads the `-MM` as a time zone, harmless for full hours; a restart from such a run adds a time step to a text, io.py:156-159, and fails.)
* C125 – the sub-area options (`--xl --xr --yl --yu`) assume ascending axes: with latitudes stored from north to south, `ds.sel(lat=slice(yl, yu))` (aws2cosipy.py:496) selects nothing when yl < yu; the input file is written without cells before the check of its extremes raises a ValueError.
* C130 – run-cosipy reads its options with `parse_known_args` and drops the rest (config.py:104): `-C my.toml` runs with the default configuration. With `slurm_use` the workers are started by Dask with Dask's own command line; they import cosipy.config there and simulate with the default config.toml and constants.toml, whatever `-c` and `-x` say. wrf2cosipy imports cosipy.constants (wrf2cosipy.py:36-37), which parses the same command line first: `-h` shows the help of run-cosipy, and `-x`/`-c` are read by COSIPY and then rejected by wrf2cosipy. cosipy-help fails where no config.toml can be read, since importing the module loads it (config.py:281). `help-cosipy` is documented (documentation.rst:325) but is not in pyproject.toml.
* C134 – the sun is placed by `df.index[t].hour` (aws2cosipy.py:624-625, 719-720): minutes are dropped, so that all records of an hour get the sun at its beginning; on the equator records between 6:00 and 6:59 cannot be corrected at all (sun exactly on the horizon, in exact arithmetic). Aggregated values carry the time of the beginning of their interval, so that daily values are corrected with the sun at midnight and slope and aspect have no influence. Moelg2009 takes the sun half a step before the time stamp (radCor.py:468), as is right for values labelled at the end of the interval; aggregated values are labelled at its beginning, so the sun is a whole step early.
* C137 – `cosipy-plot-profile` is installed as `plot_profiles:main` (pyproject.toml:101), but plot_profiles.py has no `main`; its code runs only as a script. The command always stops with an ImportError. `cosipy-plot-field -v SLOPE` (also MASK, ASPECT) stops with a KeyError, since only a variable called "elevation" is exempt from the selection of a time (plot_cosipy_fields.py:185-189).
* C138 – `cosipy-plot-vtk` lists `-n/--name` under its required arguments (plot_cosipy_fields_vtk.py:483-486), but the option is not declared required (513-521): without it the program starts with the name `None` (`C138_vtk_refuted`).
* C139 – `grid_info` prints the names of ten columns (grid.py:992-996) but nine values per row (999-1009): the liquid water "LW [m]" is missing, and cold content, porosity, refreezing and irreducible water stand one column too far left (`C139_info_refuted`).

**Read only** (noticed, not modelled as properties): the humidity that `calcRad` gets is not yet clipped to [0, 100]; a measured G is ignored by
Moelg2009; a missing N column ends in UnboundLocalError; the table files carry latitudes in the other order than their data; `G[t] = max(G[t], 0)` modifies the input; `hour = df.index[t].hour` ignores minutes; `check_layer_property` calls
`os._exit()` without an argument; `stake_evaluation` in coupled mode raises; unknown `remesh_method` is ignored silently.

## 5. Theorems against wrong programs

`seeded/LOG.jsonl` records edits of the model that imitate realistic bugs, made in a scratch copy: the definition, the edit, the claim it
breaks, the theorems that failed to build, and theorems that were strengthened because an edit survived.

## 6. The model against the project's own tests

The proofs are about the model. That the model is the program is read off the source, definition by definition; nothing of /repo was
run. As a check on this reading, `Verif/Validation/Tests.lean` evaluates the model on the inputs of the project's unit tests
(cosipy/tests) and checks their assertions. The number type is double precision (`Fl (binary64 ℚ)`), the elementary functions are
rational approximations to thirty digits (`Verif/Validation/Numeric.lean`), the constants are those of constants.toml, and the
kernel evaluates the terms. These are tests, not proofs, and no claim uses them.

- Replayed and passing: all tests of layer and grid getters and setters (among them `test_grid_get_depth`, which demands equal and
  not only close floating-point sums), grid update, fresh snow, node removal, albedo, densification, penetrating radiation,
  percolation, refreezing, roughness and surface temperature.
- The surface temperature tests depend on scipy. Its result is replaced by the upper bound of the search interval. The secant
  iteration is evaluated in the model: on the test's input it leaves the range in which the formula for the saturation pressure makes
  sense and ends below 220 K, so that this test of "Secant" in fact tests the fallback.
- Not replayed: tests of Python types, of parsing the configuration and the command line (`test_config.py`,
  `test_utilities_config.py`), of plots (`test_postprocessing_field_plots.py`), and tests that compare two formulas written in the
  test itself without calling the program (`test_parameterisation_heatEquation.py`, `test_percolate_layer` and the like).
