# Formal model of webbjj/clustertools in Lean 4 — design

## 1. Trusted base

* Lean 4.33.0's kernel. No axioms are added; every property theorem depends on at most
  `propext`, `Classical.choice`, `Quot.sound` (the standard three; checked with `#print axioms` for every theorem in
  `MANIFEST.json`, see section 5). No `native_decide`, no `bv_decide`.
* Mathlib (order, real numbers, trigonometry, complex argument, lists, sorting) is checked by the same kernel.
* The tie between `/repo` and the model is *reading*: every definition cites file and lines. The code is not run.

### Idealisations that hold everywhere
* **Numbers**: numpy float64 is modelled by exact real arithmetic (`ℝ`). Rounding, overflow, signed zeros and ±inf are not
  modelled. Where a NaN matters it is explicit: `⊤` in `WithTop ℝ` (energies of coincident stars), `none` (a star that sits on a
  path point), and otherwise division by zero is Lean's `x / 0 = 0` only where the comment says so or a hypothesis excludes it.
* **Arrays**: numpy arrays are `List`s; elementwise operations on arrays of different length, out-of-range indices, `argmin` of
  nothing etc. are error values where the code can reach them. In-place changes are modelled where they are observable by the
  caller: boolean masks (`Mem`, `C21`), the caller's bins (`C53`), the mask of `rtidal`.
* **Exceptions** are values (`Except Err`); the partial state left behind by a raising call is not modelled.
* **Loops** without a bound in the code are given by fuel (`loopN`) together with the relation "ends" (`Ends`); theorems say that
  enough fuel exists (or, `C36_clip_diverges_violated`, that none does).
* **Threads** (`prange` kernels): a small machine of loads and stores per worker; theorems quantify over all interleavings.
* **External libraries** are parameters; what is assumed of them is a hypothesis (a small structure or predicate in `Spec/`):
  galpy's unit factors (`Galpy`, positive), its sky map (`toSky`/`ofSky`, inverse where a theorem says so), the integration of
  an orbit (`IsFlow`: time zero is the identity and times add),
  `rtide` (non-negative, zero for zero mass, monotone for convergence), `_rotate_to_arbitrary_vector` (`TurnsToX`: a rotation
  taking the vector to the x axis); scipy's KD-tree query (`IsKnn`, `IsKD`); AMUSE quantities are the numbers they hold.
* `numpy.argsort` is a *stable* merge sort (numpy's default is introsort: which permutation is returned for ties is
  unspecified; theorem statements use only "sorted permutation"). `numpy.arctan2` is `Complex.arg`.
* Files are lists of lines (rows of numbers, or text) and, for NBODY6, lists of bytes (little endian); a file object is the
  unread remainder. `savetxt` is exact; comment lines and blank lines do not occur.

## 2. Layout

* `Verif/Model/*.lean`  — shallow model, one file per area, each definition cites source lines.
* `Verif/Spec/*.lean`   — small specifications that do not mention the model's helpers.
* `Verif/Lemmas/*.lean` — helper lemmas.
* `Verif/Props/*.lean`  — the property theorems `Cxx_…`, with a satisfiability `example` beside each.
* `tools/manifest.py` writes `MANIFEST.json` and `Verif.lean`; `tools/mutate.py` runs seeded wrong programs (log in `seeded/`).

Negative results (the pinned code violates the English property) are theorems named `Cxx_…_violated`: either a universally
quantified statement of what the code does instead, or a concrete witness. The part that does hold is `Cxx_…_partial`, or a full
theorem about the restricted situation. A claim is "partial" in `MANIFEST.json` as soon as one of either kind belongs to it.

## 3. What is modelled

| code | model | simplifications |
|------|-------|-----------------|
| `cluster/operations.py` | `Ops`, `History`, `Energy` (`virialize`), `Rotation` (`add_rotation`) | one record; AMUSE quantities are numbers |
| `cluster/cluster.py` `__init__`, `add_stars`, `add_binary_stars`, `add_orbit`, `add_nbody6`, `add_energies`, `analyze`, `sortstars`, `subset`, `sub_cluster`, `overlap_cluster` | `Ops`, `Stars`, `Subset`, `IO` (`addOrbit`), `Nbody6`, `Energy` | `sub_cluster` copies only modelled attributes; `ofilename`, `initialize` keywords not modelled; the method forms that only forward to functions are not repeated |
| `analysis/functions.py` `find_centre*`, `energies`, `virial_radius`, `rlagrange`, `eta_function`, `meq_func`, `meq_function`, `ckin`, `rtidal`, `virial_radius_critical_density` (3D), `half_mass_relaxation_time`, `relaxation_time`, `core_relaxation_time`, `closest_star`, `rcore`, `rlimiting`, `_rho_prof`, `mass_function`, `tapered_mass_function` | `Centre`, `Energy`, `Lagrange`, `Subset`, `Tidal`, `Profiles`, `Relax`, `Neighbours`, `MassFunction`, `Tapered`, `VirialCrit`, `DensityRadius`, `Eta` | plotting not modelled; numba kernels as folds; `-1` returned by `subset` is followed as an index; scipy's `curve_fit` is an arbitrary function of its data |
| `analysis/profiles.py` `m_prof`, `rho_prof`, `sigv_prof`, `v_prof`, `v2_prof`, `beta_prof`, `vcirc_prof`, `alpha_prof`, `eta_prof`, `meq_prof` | `Profiles`, `Vcirc`, `SlopeProf` | plotting only as its effect on the returned radii; division by a zero radius excluded |
| `analysis/orbits.py` `initialize_orbit`, `orbital_path`, `orbital_path_match` | `Orbits` | `ro`, `vo`, `zo`, `solarmotion` overrides, legacy `dt`, plain-float `tfinal` in AMUSE units not modelled |
| `analysis/orbits.py` `initialize_orbits`, `_integrate_orbit(s)`, `interpolate_orbit(s)` with the methods, legacy `orbit(s)_interpolate` | `Interp` | keyword overrides of `ro`, … see `InterpScales`; galpy's integration is an arbitrary map `flow t p` |
| `interpolate_orbits` and its method in `radec` units at the origin `sky` (others raise) | `InterpSky` | the sky columns and the coordinates, one array in the code, are two copies; they differ only when `add_orbit` refills a column of zeros |
| `initialize_orbit(s)`, `interpolate_orbit(s)` and their methods with the keywords `ro`, `vo`, `zo`, `solarmotion` | `InterpScales` | galpy at the given scales is a second `Galpy`; `interpolate_orbits` off the sky only |
| `analysis/orbits.py` `orbital_path_match(skypath=True)` | `SkyPath` | without plotting and without overrides of the solar constants |
| `tidaltail/tails.py` `tail_path(skypath=True)`, `tail_path_match(skypath=True)`; `util/coordinates.py` `cart_to_sky` (as a coordinate map) | `SkyTail` | without plotting and without overrides of the solar constants |
| `tidaltail/tails.py` `to_tail`, `tail_path`, `tail_path_match` | `Tails` | `skypath` in `SkyTail`; plotting not modelled |
| `util/recipes.py` binning, means, smoothing, interpolation, power laws, nearest neighbours, roaming bins, `x_hist`, `dx_function`, `tapered_dx_function` | `Recipes`, `MassFunction`, `Tapered` | `np.polyfit(…, 1, cov=True)` by its normal equations; scipy fits as arbitrary functions of their data and bounds |
| `util/coordinates.py` | `Coords` | galpy `rect_to_cyl` etc. by their definition |
| `util/units.py` `_get_grav`, `_convert_*` | `Grav`, `Convert` | `coords.mass_in_msol` does not exist in galpy: the call raises |
| `io/load.py`, `io/snapshot.py`, `util/output.py` `snapout` | `IO` | `ctype='snapshot'`; delimiter and `projected` ignored; the centre finder is a parameter with a specification (`CentreFinder`), instantiated by the default finder |
| `io/nbody6.py` | `Nbody6` | float inf/NaN, restart from `cont/`, header items that are not kept |
| `io/gyrfalcon.py` with the matching branches of `io/load.py` | `Gyr` | lines are lists of words, `float`/`int` arbitrary partial maps; one reading position per cluster instead of a shared one; `filename=`, `orbit=` in an advance not modelled; `np.loadtxt` as in numpy ≥ 1.23 |
| `io/nbody6pp.py` `_get_nbody6pp`, `_get_nbody6pp_conf3` with the branches of `io/load.py` | `Nbody6pp` | float `dtout`, `cont/` not modelled; float inf/NaN |
| `io/nbody6pp.py` `_get_nbody6pp` with `snap40`, `_get_nbody6pp_hdf5`, `_get_nbody6pp_hdf5_binaries`, and the `hdf5` branches of `io/load.py` | `Nbody6ppH5` | a file is a list of groups, a group a record of equally long datasets; core radii, effective temperatures, epochs, float `dtout`, `cont/` not modelled; loading without `conf.3` is modelled (`reset_nbody_scale`) but only its errors in advancing are proved |
| `io/nbody6pp.py` `_get_nbody6pp_ev` with the `bev.82`, `sev.83` branches of `_get_nbody6pp` | `Nbody6ppEv` | a file is its header line and rows of numbers; one-column files and malformed headers not modelled |
| `io/load.py` `orbit=` of `load_cluster`, `advance_cluster` | `OrbitArg` | a galpy orbit is an arbitrary function of time giving kpc, km/s |
| `io/astropy_table.py` with the branch of `io/load.py` | `AstropyTable` | column units ignored (as in the code); `str.lower` an arbitrary map; the caller's dictionary after an exception not modelled |
| `io/amuse.py`, `util/units.py` `_convert_amuse`, with the branches of `io/load.py` | `Amuse` | a particle is its values in pc, km/s, Msun and its key; AMUSE's number of pc/Myr in a km/s is a parameter; restart of an empty cluster not modelled |
| `cluster/cluster.py` `add_stars`: the array of ids | `Ids` | numpy's `float64`, `int64`, `uint64` for whole numbers; without binaries |
| `util/plots.py` `starplot`, `skyplot` | `Plots` | matplotlib: a figure is what is handed to `plt.plot` and the unit written on the axes; limits, legend, titles, file names ignored |
| `io/galpydf.py` with the branch of `io/load.py` | `Galpydf` | a galpy orbit is a row of internal coordinates with its own scales; `conversion.mass_in_msol` = K·vo²·ro |
| `io/limepydf.py` `c_to_w0`, `w0_to_c` | `Concentration` | the two tables copied from the code in millionths; scalar arguments |
| `io/limepydf.py` `_get_cluster`, `_get_deBoer_cluster`, `_get_harris_cluster`, `_get_limepy` | `Limepy` | the cluster `_sample_limepy` returns is an argument; `source` by which test it passes; nbody units of named clusters not modelled; `str.upper` an arbitrary map |
| `io/limepydf.py` `_sample_limepy` | `LimepySample` | `limepy(…)`, the mass of a model and `sample` are parameters; a mean mass of 0 not modelled |
| sessions of calls on one cluster (`analysis/*.py`, `tidaltail/tails.py`, `util/`, conversions of `cluster/operations.py`) | `Session` | 38 analysis functions by the models cited at their definitions; calls that store the centre they find (C77) and empty selections are excluded |
| methods of `cluster/cluster.py` 2371-3308 and the attributes they set | `Methods` | the single-valued results; `plot` arguments, arrays stored beside them (`mprof`…) and `closest_star` on the sky (prints, returns `None`) not modelled |
| `add_sse`, `add_bse` of `cluster/cluster.py`, and their selection in `sub_cluster` | `Evolution` | a single value given for several places (broadcasting) and ids that are not integers not modelled |
| all analysis functions of `Session` again, with the cluster after every conversion; the statements of `to_kpckms` (pc to kpc) one by one | `Crash` | interrupts inside conversions other than `to_kpckms` from pc, and inside `analyze`, not modelled; a conversion that raises is taken to leave the cluster as it was (for the clusters of C148 none raises) |
| the methods `save_cluster`, `return_cluster` (`cluster.py` 1962-2009) and the attributes they share with the analysis functions | `Saved` | which of the clusters on the way an analysis function saves last is left open (any of them); inside the analysis functions `return_cluster` is modelled without the replacement of `None` by saved values (`C150_kept_values` shows that the replacement gives the same data) |
| sessions with the methods that change a cluster: `virialize`, `add_rotation`, `reset_nbody_scale`, `find_centre`, `find_centre_of_mass`, `energies` (`cluster.py` 2011-2115, 2119-2189, 2264-2369, 2474-2568) | `Mutate` | the methods are those modelled in `Energy`, `Rotation`, `Grav`, `Centre`; here they are put together in sessions |
| the methods for orbits and tails and the attributes they set (`cluster.py` 3574-3836) | `PathMethods` | without `skypath` for matches and tails, without plotting; a stored `Orbit` is its initial condition (what `Orbit.x()`, `Orbit.ra()`, … return without a time) |
| the half-light radii of `analyze` (`cluster.py` 1424-1440), the luminosities of `add_sse`, and `add_stars` of a cluster with luminosities | `Light` | log luminosities finite; what `analyze` sets before it raises is not modelled |
| `analysis/functions.py` `find_centre_of_density` and the method of that name | `CentreMethods` | neighbour query and number of loop tests are parameters |
| `cluster/cluster.py` `sub_cluster` with `reset_nbody*` and `reset_centre`, `cluster/operations.py` `reset_nbody_scale` with keywords | `SubReset` | `reset_centre=True` not for a cluster on the sky; the critical-density virial radius is modelled in `VirialCrit` but cannot be reached from here |
| `util/output.py` `snapout` with its options, `util/coordinates.py` `sky_coords` | `Snapout` | numbers written exactly; `sky_coords` is the exception it raises |
| `cluster/cluster.py` attributes `trh`, `rv` set by their methods | `Stored` | two attributes out of many |
| `util/output.py`: `gyrout`, `fortout`, `sseout` | `Output` | numbers written exactly, the formats `%f`, `%i` as arbitrary maps; unequal columns raise `ValueError`; in-place change of an `eps` array modelled as the array afterwards |
