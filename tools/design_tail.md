
## 5. Axioms

`#print axioms` for every theorem in `MANIFEST.json` (script: `tools/axioms.sh`): each is contained in
`[propext, Classical.choice, Quot.sound]`.

## 6. Not modelled

* Plotting (`util/plots.py`, `plot=True` branches) except where it changes a returned value (`C54_plot_violated`).
* Numerical integration by galpy/AMUSE, scipy curve fits (`tapered` mass functions, King fits), limepy sampling, random numbers
  (except as a parameter of `C31`).
* `io/` readers other than `snapshot` and `nbody6`, and the writers other than `snapout`, unless listed in section 3.
* Rounding, floating-point exceptions and warnings; memory layout; performance.
* Attributes that no modelled function reads (labels for plots, projected copies that are only stored).

## 7. Disagreements between code and property found by the proofs

Each is a theorem `…_violated`; the list with one sentence each is in `MANIFEST.json` (notes) and beside the theorems.
