# Formal model of webbjj/clustertools in Lean 4 — design

## 1. Trusted base

* Lean 4.33.0's kernel. No axioms are added; every property theorem depends on at most
  `propext`, `Classical.choice`, `Quot.sound` (the standard three; checked with `#print axioms` for every theorem in
  `MANIFEST.json`, see section 5). No `native_decide`, no `bv_decide`.
* Mathlib (order, real numbers, trigonometry, complex argument, lists, sorting) is checked by the same kernel.
* The tie between `/repo` and the model is *reading*: every definition cites file and lines. The code is not run.

### Idealisations that hold everywhere
* **Numbers**: numpy float64 is modelled by exact real arithmetic (`ℝ`). Rounding, overflow, signed zeros and ±inf are not
  modelled. Where a NaN matters it is explicit: `⊤` in `WithTop ℝ` (energies of coincident stars), `none` (a star that sits on a
  path point), and otherwise division by zero is Lean's `x / 0 = 0` only where the comment says so or a hypothesis excludes it.
* **Arrays**: numpy arrays are `List`s; elementwise operations on arrays of different length, out-of-range indices, `argmin` of
  nothing etc. are error values where the code can reach them. In-place changes are modelled where they are observable by the
  caller: boolean masks (`Mem`, `C21`), the caller's bins (`C53`), the mask of `rtidal`.
* **Exceptions** are values (`Except Err`); the partial state left behind by a raising call is not modelled.
* **Loops** without a bound in the code are given by fuel (`loopN`) together with the relation "ends" (`Ends`); theorems say that
  enough fuel exists (or, `C36_clip_diverges_violated`, that none does).
* **Threads** (`prange` kernels): a small machine of loads and stores per worker; theorems quantify over all interleavings.
* **External libraries** are parameters; what is assumed of them is a hypothesis (a small structure or predicate in `Spec/`):
  galpy's unit factors (`Galpy`, positive), its sky map (`toSky`/`ofSky`, inverse where a theorem says so), the integration of
  an orbit (`IsFlow`: time zero is the identity and times add),
  `rtide` (non-negative, zero for zero mass, monotone for convergence), `_rotate_to_arbitrary_vector` (`TurnsToX`: a rotation
  taking the vector to the x axis); scipy's KD-tree query (`IsKnn`, `IsKD`); AMUSE quantities are the numbers they hold.
* `numpy.argsort` is a *stable* merge sort (numpy's default is introsort: which permutation is returned for ties is
  unspecified; theorem statements use only "sorted permutation"). `numpy.arctan2` is `Complex.arg`.
* Files are lists of lines (rows of numbers, or text) and, for NBODY6, lists of bytes (little endian); a file object is the
  unread remainder. `savetxt` is exact; comment lines and blank lines do not occur.

## 2. Layout

* `Verif/Model/*.lean`  — shallow model, one file per area, each definition cites source lines.
* `Verif/Spec/*.lean`   — small specifications that do not mention the model's helpers.
* `Verif/Lemmas/*.lean` — helper lemmas.
* `Verif/Props/*.lean`  — the property theorems `Cxx_…`, with a satisfiability `example` beside each.
* `tools/manifest.py` writes `MANIFEST.json` and `Verif.lean`; `tools/mutate.py` runs seeded wrong programs (log in `seeded/`).

Negative results (the pinned code violates the English property) are theorems named `Cxx_…_violated`: either a universally
quantified statement of what the code does instead, or a concrete witness. The part that does hold is `Cxx_…_partial`, or a full
theorem about the restricted situation. A claim is "partial" in `MANIFEST.json` as soon as one of either kind belongs to it.

## 3. What is modelled

| code | model | simplifications |
|------|-------|-----------------|
| `cluster/operations.py` | `Ops`, `History`, `Energy` (`virialize`), `Rotation` (`add_rotation`) | one record; AMUSE quantities are numbers |
| `cluster/cluster.py` `__init__`, `add_stars`, `add_binary_stars`, `add_orbit`, `add_nbody6`, `add_energies`, `analyze`, `sortstars`, `subset`, `sub_cluster`, `overlap_cluster` | `Ops`, `Stars`, `Subset`, `IO` (`addOrbit`), `Nbody6`, `Energy` | `sub_cluster` copies only modelled attributes; `ofilename`, `initialize` keywords not modelled; the method forms that only forward to functions are not repeated |
| `analysis/functions.py` `find_centre*`, `energies`, `virial_radius`, `rlagrange`, `eta_function`, `meq_func`, `meq_function`, `ckin`, `rtidal`, `virial_radius_critical_density` (3D), `half_mass_relaxation_time`, `relaxation_time`, `core_relaxation_time`, `closest_star`, `rcore`, `rlimiting`, `_rho_prof`, `mass_function`, `tapered_mass_function` | `Centre`, `Energy`, `Lagrange`, `Subset`, `Tidal`, `Profiles`, `Relax`, `Neighbours`, `MassFunction`, `Tapered`, `VirialCrit`, `DensityRadius`, `Eta` | plotting not modelled; numba kernels as folds; `-1` returned by `subset` is followed as an index; scipy's `curve_fit` is an arbitrary function of its data |
| `analysis/profiles.py` `m_prof`, `rho_prof`, `sigv_prof`, `v_prof`, `v2_prof`, `beta_prof`, `vcirc_prof`, `alpha_prof`, `eta_prof`, `meq_prof` | `Profiles`, `Vcirc`, `SlopeProf` | plotting only as its effect on the returned radii; division by a zero radius excluded |
| `analysis/orbits.py` `initialize_orbit`, `orbital_path`, `orbital_path_match` | `Orbits` | `ro`, `vo`, `zo`, `solarmotion` overrides, legacy `dt`, plain-float `tfinal` in AMUSE units not modelled |
| `analysis/orbits.py` `initialize_orbits`, `_integrate_orbit(s)`, `interpolate_orbit(s)` with the methods, legacy `orbit(s)_interpolate` | `Interp` | keyword overrides of `ro`, … see `InterpScales`; galpy's integration is an arbitrary map `flow t p` |
| `interpolate_orbits` and its method in `radec` units at the origin `sky` (others raise) | `InterpSky` | the sky columns and the coordinates, one array in the code, are two copies; they differ only when `add_orbit` refills a column of zeros |
| `initialize_orbit(s)`, `interpolate_orbit(s)` and their methods with the keywords `ro`, `vo`, `zo`, `solarmotion` | `InterpScales` | galpy at the given scales is a second `Galpy`; `interpolate_orbits` off the sky only |
| `analysis/orbits.py` `orbital_path_match(skypath=True)` | `SkyPath` | without plotting and without overrides of the solar constants |
| `tidaltail/tails.py` `tail_path(skypath=True)`, `tail_path_match(skypath=True)`; `util/coordinates.py` `cart_to_sky` (as a coordinate map) | `SkyTail` | without plotting and without overrides of the solar constants |
| `tidaltail/tails.py` `to_tail`, `tail_path`, `tail_path_match` | `Tails` | `skypath` in `SkyTail`; plotting not modelled |
| `util/recipes.py` binning, means, smoothing, interpolation, power laws, nearest neighbours, roaming bins, `x_hist`, `dx_function`, `tapered_dx_function` | `Recipes`, `MassFunction`, `Tapered` | `np.polyfit(…, 1, cov=True)` by its normal equations; scipy fits as arbitrary functions of their data and bounds |
| `util/coordinates.py` | `Coords` | galpy `rect_to_cyl` etc. by their definition |
| `util/units.py` `_get_grav`, `_convert_*` | `Grav`, `Convert` | `coords.mass_in_msol` does not exist in galpy: the call raises |
| `io/load.py`, `io/snapshot.py`, `util/output.py` `snapout` | `IO` | `ctype='snapshot'`; delimiter and `projected` ignored; the centre finder is a parameter with a specification (`CentreFinder`), instantiated by the default finder |
| `io/nbody6.py` | `Nbody6` | float inf/NaN, restart from `cont/`, header items that are not kept |
| `io/gyrfalcon.py` with the matching branches of `io/load.py` | `Gyr` | lines are lists of words, `float`/`int` arbitrary partial maps; one reading position per cluster instead of a shared one; `filename=`, `orbit=` in an advance not modelled; `np.loadtxt` as in numpy ≥ 1.23 |
| `io/nbody6pp.py` `_get_nbody6pp`, `_get_nbody6pp_conf3` with the branches of `io/load.py` | `Nbody6pp` | float `dtout`, `cont/` not modelled; float inf/NaN |
| `io/nbody6pp.py` `_get_nbody6pp` with `snap40`, `_get_nbody6pp_hdf5`, `_get_nbody6pp_hdf5_binaries`, and the `hdf5` branches of `io/load.py` | `Nbody6ppH5` | a file is a list of groups, a group a record of equally long datasets; core radii, effective temperatures, epochs, float `dtout`, `cont/` not modelled; loading without `conf.3` is modelled (`reset_nbody_scale`) but only its errors in advancing are proved |
| `io/nbody6pp.py` `_get_nbody6pp_ev` with the `bev.82`, `sev.83` branches of `_get_nbody6pp` | `Nbody6ppEv` | a file is its header line and rows of numbers; one-column files and malformed headers not modelled |
| `io/load.py` `orbit=` of `load_cluster`, `advance_cluster` | `OrbitArg` | a galpy orbit is an arbitrary function of time giving kpc, km/s |
| `io/astropy_table.py` with the branch of `io/load.py` | `AstropyTable` | column units ignored (as in the code); `str.lower` an arbitrary map; the caller's dictionary after an exception not modelled |
| `io/amuse.py`, `util/units.py` `_convert_amuse`, with the branches of `io/load.py` | `Amuse` | a particle is its values in pc, km/s, Msun and its key; AMUSE's number of pc/Myr in a km/s is a parameter; restart of an empty cluster not modelled |
| `cluster/cluster.py` `add_stars`: the array of ids | `Ids` | numpy's `float64`, `int64`, `uint64` for whole numbers; without binaries |
| `util/plots.py` `starplot`, `skyplot` | `Plots` | matplotlib: a figure is what is handed to `plt.plot` and the unit written on the axes; limits, legend, titles, file names ignored |
| `io/galpydf.py` with the branch of `io/load.py` | `Galpydf` | a galpy orbit is a row of internal coordinates with its own scales; `conversion.mass_in_msol` = K·vo²·ro |
| `io/limepydf.py` `c_to_w0`, `w0_to_c` | `Concentration` | the two tables copied from the code in millionths; scalar arguments |
| `io/limepydf.py` `_get_cluster`, `_get_deBoer_cluster`, `_get_harris_cluster`, `_get_limepy` | `Limepy` | the cluster `_sample_limepy` returns is an argument; `source` by which test it passes; nbody units of named clusters not modelled; `str.upper` an arbitrary map |
| `io/limepydf.py` `_sample_limepy` | `LimepySample` | `limepy(…)`, the mass of a model and `sample` are parameters; a mean mass of 0 not modelled |
| sessions of calls on one cluster (`analysis/*.py`, `tidaltail/tails.py`, `util/`, conversions of `cluster/operations.py`) | `Session` | 38 analysis functions by the models cited at their definitions; calls that store the centre they find (C77) and empty selections are excluded |
| methods of `cluster/cluster.py` 2371-3308 and the attributes they set | `Methods` | the single-valued results; `plot` arguments, arrays stored beside them (`mprof`…) and `closest_star` on the sky (prints, returns `None`) not modelled |
| `add_sse`, `add_bse` of `cluster/cluster.py`, and their selection in `sub_cluster` | `Evolution` | a single value given for several places (broadcasting) and ids that are not integers not modelled |
| all analysis functions of `Session` again, with the cluster after every conversion; the statements of `to_kpckms` (pc to kpc) one by one | `Crash` | interrupts inside conversions other than `to_kpckms` from pc, and inside `analyze`, not modelled; a conversion that raises is taken to leave the cluster as it was (for the clusters of C148 none raises) |
| the methods `save_cluster`, `return_cluster` (`cluster.py` 1962-2009) and the attributes they share with the analysis functions | `Saved` | which of the clusters on the way an analysis function saves last is left open (any of them); inside the analysis functions `return_cluster` is modelled without the replacement of `None` by saved values (`C150_kept_values` shows that the replacement gives the same data) |
| sessions with the methods that change a cluster: `virialize`, `add_rotation`, `reset_nbody_scale`, `find_centre`, `find_centre_of_mass`, `energies` (`cluster.py` 2011-2115, 2119-2189, 2264-2369, 2474-2568) | `Mutate` | the methods are those modelled in `Energy`, `Rotation`, `Grav`, `Centre`; here they are put together in sessions |
| the methods for orbits and tails and the attributes they set (`cluster.py` 3574-3836) | `PathMethods` | without `skypath` for matches and tails, without plotting; a stored `Orbit` is its initial condition (what `Orbit.x()`, `Orbit.ra()`, … return without a time) |
| the half-light radii of `analyze` (`cluster.py` 1424-1440), the luminosities of `add_sse`, and `add_stars` of a cluster with luminosities | `Light` | log luminosities finite; what `analyze` sets before it raises is not modelled |
| `analysis/functions.py` `find_centre_of_density` and the method of that name | `CentreMethods` | neighbour query and number of loop tests are parameters |
| `cluster/cluster.py` `sub_cluster` with `reset_nbody*` and `reset_centre`, `cluster/operations.py` `reset_nbody_scale` with keywords | `SubReset` | `reset_centre=True` not for a cluster on the sky; the critical-density virial radius is modelled in `VirialCrit` but cannot be reached from here |
| `util/output.py` `snapout` with its options, `util/coordinates.py` `sky_coords` | `Snapout` | numbers written exactly; `sky_coords` is the exception it raises |
| `cluster/cluster.py` attributes `trh`, `rv` set by their methods | `Stored` | two attributes out of many |
| `util/output.py`: `gyrout`, `fortout`, `sseout` | `Output` | numbers written exactly, the formats `%f`, `%i` as arbitrary maps; unequal columns raise `ValueError`; in-place change of an `eps` array modelled as the array afterwards |

## 4. Per property

| id | property | model | proof | status |
|----|----|----|----|----|
| C01 | Unit conversions preserve the physical cluster | `Ops` | spec `phys`: labelled cluster → pc, km/s, Msun, Myr; each call commutes with it | proved |
| C02 | Unit conversion is path independent | `Ops, History` | label + `phys` determine the numbers; induction over the calls | proved |
| C03 | Unit conversion round-trips | `Ops, History` | as C02 | proved |
| C04 | Converting to the current units is a no-op on the data | `Ops` | as C02 | proved |
| C05 | Clusters without units or origin are left alone | `Ops` | case analysis | partial |
| C06 | Origin changes preserve galactocentric phase space | `Ops` | spec `galRows`: galactocentric rows described; each call preserves them | proved |
| C07 | Origin changes are path independent and round-trip | `Ops, History` | determinacy + induction | proved |
| C08 | Unit and origin changes commute | `Ops, History` | spec `world`; induction over interleavings; totality from an invariant | proved |
| C09 | Analysis restores the caller's cluster | `Ops, History` | `world` preserved + determinacy; invariant for the stored order | proved |
| C10 | The gravitational constant matches the unit system | `Grav` | scaling identity per unit system | proved |
| C11 | Derived star quantities are consistent after analysis | `Ops, History` | spec `Fresh`; induction over histories | proved |
| C12 | Binary unit conversions round-trip | `Ops` | physical binaries preserved; determinacy | partial |
| C13 | Sky conversion round-trips and reflects current positions | `Ops (sky)` | spec `Describes`: true content against sky or linear rows; induction over all calls | partial |
| C14 | Sky-plane recentring is reversible | `Ops (sky)` | sky rows are an invariant; induction | proved |
| C15 | The stored radial order is a sort of the current radii | `Ops, History` | invariant: order sorted in the frame it was made for; induction | proved |
| C16 | Half-mass radius | `Ops` | sorted cumulative sums against `IsMassRadius` | proved |
| C17 | Lagrange radii | `Lagrange` | as C16, plus restoration (C09) | proved |
| C18 | Star arrays stay aligned under add_stars | `Stars` | spec `Aligned`, `Fits`; induction over calls | proved |
| C19 | Binary centre of mass | `Stars` | first call: row computation; later calls: general statement of the failure | partial |
| C20 | Subset selection is exactly the requested filter | `Subset` | mask semantics against `Passes` | partial |
| C21 | Subset selection does not modify the caller's mask | `Subset, Tidal` | heap of masks `Mem`; induction over sequences | partial |
| C22 | sub_cluster is row-consistent | `Subset` | list filtering, composition | partial |
| C23 | overlap_cluster keeps exactly the close stars | `Subset` | as C22 | partial |
| C24 | bin_index places every value in its bin | `Recipes` | contiguity `Contig` | proved |
| C25 | Equal-number binning loses no element | `Recipes` | loop invariants of `nbinmaker` | partial |
| C26 | Equal-width binning partitions the data | `Recipes` | partition | proved |
| C27 | Running bins count what they claim | `Recipes` | counting | partial |
| C28 | Binned means are means | `Recipes` | `bincount` as sums over bins | partial |
| C29 | Linear interpolation | `Recipes` | field arithmetic | proved |
| C30 | Nearest-neighbour distances | `Recipes` | minimum over lists | proved |
| C31 | Power-law samples stay in range | `Recipes` | monotonicity of real powers | proved |
| C32 | Spherical and cylindrical coordinates round-trip | `Coords` | trigonometric identities | proved |
| C33 | Potential energy is the pairwise sum | `Energy` | kernels as folds of updates = pairwise sums; induction | partial |
| C34 | virialize reaches the requested virial ratio | `Energy` | scaling of kinetic energy | partial |
| C35 | Centre of mass | `Centre` | weighted sums | proved |
| C36 | Iterative centre finding terminates | `Centre` | measure for termination; explicit diverging family | partial |
| C37 | Mass profile adds up | `Profiles` | partition + restoration | proved |
| C38 | Unit helper functions agree with cluster conversion | `Convert` | unit table of C01; exact set of pairs `VelOk` | partial |
| C39 | Snapshot counter and file resolution when advancing | `IO` | simulation between advancing and loading; induction over chains | proved |
| C40 | Snapshot column mapping | `IO` | row by row | partial |
| C41 | Binary NBODY6 snapshots decode what was encoded | `Nbody6` | encoder in `Spec/Nbody6`, decode∘encode = id, induction over records | proved |
| C42 | Saved snapshots reload unchanged | `IO` | write then read | partial |
| C43 | Matching to an orbital path | `Orbits` | argmin; triangle inequality; trigonometry | partial |
| C44 | Tidal radius iteration | `Tidal` | spec `TideRun`; monotone iteration, finite measure | proved |
| C45 | Virial radius is the harmonic mean separation | `Energy, Virial` | pair sums, invariance of `world`; the whole function including its conversions of units, and after sessions of calls (C124) | proved |
| C46 | reset_nbody_scale gives physical scales | `Energy` | as C45 + C09 | partial |
| C47 | Equal-number binning gives equal numbers | `Recipes` | counting positions in the sorted list | proved |
| C48 | Smoothing reports the statistics of its bins | `Recipes` | as C28 | proved |
| C49 | Parallel potential energies do not depend on thread scheduling | `Energy` | invariant over interleavings; explicit racing schedule | partial |
| C50 | A found centre becomes the origin of to_centre | `Centre` | composition of C35/C67 with `to_centre` | partial |
| C51 | Density profile integrates to the mass | `Profiles` | C37 divided by shell volumes | proved |
| C52 | Velocity profiles report the statistics of their bins | `Profiles` | statistics over bins | partial |
| C53 | A profile call leaves the caller's arguments alone | `Profiles` | heap of masks, returned bins | partial |
| C54 | Normalised profile radii are in units of the half-mass radius | `Profiles` | half-mass radius of C16 | partial |
| C55 | Circular velocity profile | `Vcirc` | cumulative sums over sorted radii | partial |
| C56 | add_orbit converts to the cluster's units | `IO` | scales of C01 | partial |
| C57 | NBODY6 scales for binaries are consistent | `Nbody6` | arithmetic | proved |
| C58 | Stellar evolution arrays have one entry per star | `Nbody6` | list lengths | partial |
| C59 | The orbital path is the cluster's orbit | `Orbits` | flow laws; equally spaced times | partial |
| C60 | The tail path is the mean of the stars along the orbit | `Tails` | bins of C25/C26 over path times, means over stars | partial |
| C61 | to_tail is a rotation that puts the orbital velocity on the x axis | `Tails` | matrix identities | proved |
| C62 | tail_path_match matches stars to the tail path | `Tails` | C43 ∘ C60 | partial |
| C63 | Sky-plane coordinates are relative to the chosen reference with the chosen method | `Ops (sky)` | explicit computation | partial |
| C64 | Order-dependent quantities are right with sorting off and in projection | `Ops, Lagrange` | witnesses | partial |
| C65 | Well-formed calls of add_stars succeed | `Stars` | totality from `Aligned` | partial |
| C66 | Coordinate functions work for every cluster | `Coords` | C09 | partial |
| C67 | Centre finders | `Centre` | loop simulation (equivariance), restoration | partial |
| C68 | Advancing keeps the options the cluster was loaded with | `IO` | computation of the advance | partial |
| C69 | The requested NBODY6 snapshot is read, and the end is recognised | `Nbody6` | computation | partial |
| C70 | add_rotation only turns the sense of rotation | `Rotation` | pointwise algebra (cylindrical velocities), frame lemmas; computation of the violated branch | proved |
| C71 | Relaxation times | `Relax` | `pcStart` leaves a fresh cluster whose `rm` is the half-mass radius (order invariant); algebra; computation | proved |
| C72 | Relaxation times: sign, projection, given radius | `Relax` | sign of the logarithm; order invariant; a concrete cluster; computation | partial |
| C73 | add_rotation for galactocentric clusters | `Rotation` | computation of the branch | partial |
| C74 | Closest star | `Neighbours` | case analysis of a valid two-neighbour answer | proved |
| C75 | Closest star: sky coordinates, coincident stars | `Neighbours` | computation; pigeonhole on the two entries of the answer | partial |
| C76 | Core radius and core relaxation time | `Neighbours` | densities scale with the units; weighted means; uniqueness in general position; `return_of_world` | proved |
| C77 | rcore leaves the cluster as it was | `Neighbours` | positive weights give a positive density centre, which is stored | partial |
| C78 | Histograms and number densities | `NumberDensity` | bins from C25/C26; the mask dx>0 selects exactly the non-empty bins; normal equations give the unique minimum (Lemmas/Fit) | partial |
| C79 | Mass functions | `MassFunction` | selection as a mask (C40), bins of the profile machinery, weights summed per bin, least squares, scaling lemmas for the bin makers | proved |
| C80 | mass_function exists whenever stars are selected | `MassFunction2` | the empty bin gives a zero density, whose logarithm is not finite; the method unpacks seven of eight values | partial |
| C81 | Radius of a given overdensity | `VirialCrit2` | sorted order gives the cumulated mass within each star (C05 machinery); argmin of the distance; the neighbour chosen by the sign encloses the density; conversion by C38 | proved |
| C82 | The overdensity radius is where the density is reached | `VirialCrit2` | explicit evaluation of the interpolation at the edges and on rising stretches | partial |
| C83 | Limiting radius | `DensityRadius4` | the profile in galpy units is the physical profile scaled (equal-number bins by ranks scale); the reading of the profile commutes with scaling; profile and reading are unique | proved |
| C84 | Core radius from the central density | `DensityRadius4` | as C83; last bin not below and first bin below are neighbours when the profile stays below | proved |
| C85 | A core radius is where the density falls to the core density | `DensityRadius4` | exact description of the line the code extrapolates, and comparison with the first fall | partial |
| C86 | Moving the cluster along its orbit | `Interp` | the orbit starts at the physical galactocentric place (to_galpy and back restore the cluster, cylindrical coordinates round-trip), linspace ends at the time, lengths convert back; to_cluster, add_orbit and the way back compose to a displacement of the world | proved |
| C87 | interpolate_orbit moves what it follows, in all units | `Interp` | exact result of the method, compared with the centre's orbit | partial |
| C88 | Moving the stars along their orbits | `Interp2` | as C86, for the list of stars | proved |
| C89 | After interpolate_orbits the cluster is consistent | `Interp3` | exact state left behind; example with force-free motion | partial |
| C90 | The legacy names of orbit interpolation | `Interp3` | Python's binding of arguments to parameters is modelled | partial |
| C91 | Velocity dispersion as a function of mass | `Eta` | masks of the subset are the English selection; nbinmaker gives contiguous equal-number bins; the fit satisfies the normal equations | proved |
| C92 | eta_function answers for any population | `Eta2` | exact runs of the model | partial |
| C93 | The equipartition relation | `Eta3` | calculus | proved |
| C94 | Equipartition mass and kinematic concentration | `Eta3` | C91's run with a fit as parameter; C17's Lagrange radii are unique | proved |
| C95 | ckin signals that it has no answer, in every frame, and respects its arguments | `Eta3` | exact runs of the model | partial |
| C96 | The profile of the slope of the mass function | `SlopeProf2` | each radial mask is the English bin; C78's mass function for it; induction over the bins keeps the cluster | proved |
| C97 | alpha_prof signals bins it cannot fit, and respects its arguments | `SlopeProf3` | exact runs of the model | partial |
| C98 | Profiles of the slope of velocity dispersion and of the equipartition mass | `SlopeProf4` | the radius limits of the inner call are the English shell; C91's and C94's fits; induction over the bins | proved |
| C99 | eta_prof and meq_prof respect their arguments and signal bins they cannot fit | `SlopeProf5` | exact runs of the model | partial |
| C100 | Reading a gyrfalcON/NEMO simulation snapshot by snapshot | `Gyr2` | token-level model of the reader; inductive specification of a file; invariant (the unread lines are a file with the remaining snapshots) by induction over the calls | proved |
| C101 | Reading gyrfalcON output respects the orbit file, nsnap and give | `Gyr3` | exact runs of the model for every file and history; concrete file | partial |
| C102 | The faster gyrfalcON reader on regular files | `Gyr4` | block arithmetic of a regular file by induction; invariant over the calls | proved |
| C103 | The two gyrfalcON readers agree | `Gyr5` | exact runs of the model for every regular file; concrete file | partial |
| C104 | A gyrfalcON simulation stopped while writing a header | `Gyr6` | files that begin with snapshots and go on with a cut header; the invariant of C100 with a rest of the file | proved |
| C105 | A gyrfalcON simulation stopped while writing stars | `Gyr6` | exact runs of the model for every crash point; concrete files | partial |
| C106 | gyrout writes masses, positions and softening lengths | `GyrOut` | the conversions as a history (C09), world meaning of the columns | proved |
| C107 | gyrout writes velocities in kpc/Gyr and leaves its arguments alone | `GyrOut` | exact runs; comparison with the world | partial |
| C108 | fortout and sseout write what NBODY6 reads | `FortOut` | the conversions as a history; world meaning of the rows; change of scales under C45/C46 | proved |
| C109 | fortout leaves the cluster and files as expected in all cases | `FortOut2` | exact runs; concrete clusters | partial |
| C110 | load_cluster(orbit=) puts the cluster on the orbit | `OrbitArg` | exact run; orbital position compared in physical units; centre finding preserves the stars | proved |
| C111 | An orbit argument is honoured in all units, on loading and advancing | `OrbitArg` | exact runs; comparison with the physical position | partial |
| C112 | NBODY6++ snapshots are read faithfully, snapshot after snapshot | `Nbody6pp2` | bytes decoded by induction over the file; induction over advances | proved |
| C113 | NBODY6++ binaries, potentials, directories and damaged files are handled | `Nbody6pp2` | exact runs on arbitrary files | partial |
| C114 | Loading an astropy table takes each quantity from its column | `AstropyTable` | column search by cases; add_stars on a new cluster; settling preserves stars | proved |
| C115 | Loading an astropy table has no side effects and works as for other types | `AstropyTable` | exact runs | partial |
| C116 | A cluster of galpy orbits has its stars where the orbits are | `Galpydf` | add_stars on a new cluster; settling preserves stars; phys of the result | proved |
| C117 | A cluster of galpy orbits is right in every unit system and with an orbit file | `Galpydf` | exact runs | partial |
| C118 | Concentration and central potential of King models convert into each other | `Concentration` | linear interpolation from the nearest entry lies on the broken line; the line is strictly increasing, hence invertible; the tables are checked by the kernel in integers | proved |
| C119 | Concentrations outside the table are refused or extrapolated sensibly | `Concentration` | exact runs: index -1 wraps to the end of the table | partial |
| C120 | A named globular cluster is sampled from its own row of the catalogue | `Limepy` | the row found is the unique one with that name; C118 for the potential | proved |
| C121 | By default every catalogued cluster can be had, and unknown names are reported | `Limepy` | exact runs of the lookup | partial |
| C122 | A limepy cluster is the one sampled, in the units and frame asked for | `Limepy` | the conversions are steps that preserve the world (C01–C09) | proved |
| C123 | A limepy model is right in every unit system, frame and with an orbit file | `Limepy` | exact runs | partial |
| C124 | Analysis calls are observers, in sessions of any length | `Session` | relational invariant (described world, scales, radial order) through every function body by a bind rule for results; return_cluster restores the data (C09); induction on the session | proved |
| C125 | Results stored on the cluster are in its current units | `Stored` | induction on the calls; C71 and C81 give the ratio | partial |
| C126 | NBODY6++ stellar evolution files go to the right stars and binaries | `Nbody6ppEv3` | scatter of distinct addresses by induction on the lines; alignment with C112; induction on advances | proved |
| C127 | NBODY6++ luminosities and degenerate stellar evolution files | `Nbody6ppEv3` | from the description of the arrays in C126 | partial |
| C128 | HDF5 output of NBODY6++ is read group by group and file by file | `Nbody6ppH5d` | induction on the history from the end; scales handed from group to group survive conversions because the physical centre and scales do (C01) | proved |
| C129 | HDF5 output: end of the run, scales, counts, component masses | `Nbody6ppH5e` | from the description of the cluster in C128, and direct evaluation for the missing cases | partial |
| C130 | Clusters built from observations on the sky become the right Galactocentric clusters | `SkyFirst` | invariant of the construction by induction over the add_stars calls, then the sky invariant of C13 (with orbits not yet cached) by induction over the conversions | proved |
| C131 | Clusters built from observations: missing quantities, centre, later orbits | `SkyFirst2` | explicit result of leaving the sky for the first time | partial |
| C132 | Clusters of AMUSE particles | `Amuse` | columns per unit label, the add_stars lemma for whole columns, the settling lemma for galpy orbits; induction over the advances with the remembered options as invariant | proved |
| C133 | AMUSE particles: other units, orbit files, given particles, end of a run, time | `Amuse` | explicit evaluation, induction over the advances | partial |
| C134 | Ids of stars are kept | `Ids` | numpy arrays with element types and rounding to 53 bits; induction over the calls | proved |
| C135 | Large ids are kept and stay distinct | `Ids` | conversion to float64 gives an even number above 2^53 | partial |
| C136 | Scatter plots show the stars where they are and leave the cluster alone | `Plots` | figure = what is handed to plt.plot; the invariant of sky histories (C13) extended to return_cluster; induction over the session | proved |
| C137 | Plots: amuse units, marked centres, stored centre | `Plots` | explicit evaluation | partial |
| C138 | Projections on the plane of the sky | `SkyPlane` | unit vectors of spherical astronomy as specification; trigonometric identities; the sky-state invariant over the history | proved |
| C139 | Projections on the sky: right ascension zero and axes of the motions | `SkyPlane` | explicit evaluation against the unit vectors | partial |
| C140 | Tapered mass functions fit the histogram they report | `Tapered` | bins as for C79; 10**log10 is the identity on the positive means and densities; curve_fit is a parameter | proved |
| C141 | Tapered mass functions: few stars, range of the characteristic mass | `Tapered` | explicit runs for arbitrary clusters | partial |
| C142 | A sampled limepy model is the one asked for | `LimepySample` | limepy and its sampler are parameters; add_stars on an empty cluster (C114) and find_centre on a cluster without units keep the stars; then the end of _get_limepy (C122) | proved |
| C143 | Sampling limepy models: keywords | `LimepySample` | equality of the results of the calls for arbitrary values of the keyword | partial |
| C144 | Attributes hold the last results of methods, and methods are observers | `Methods` | induction over the session; each method gives the cluster back (C124), so only conversions and the last call of a method matter | proved |
| C145 | Methods agree on the default of projected | `Methods` | equality of the calls with and without the keyword, and two stars for which the virial radii differ | partial |
| C146 | Stellar evolution data stay with their stars | `Evolution` | induction over the calls: the columns are the columns of one list of rows | proved |
| C147 | add_sse with arg places the data | `Evolution` | assignment at distinct places (induction over the places), then the lengths of the columns | partial |
| C148 | A call that is broken off loses nothing | `Crash` | every analysis function rewritten in a monad that records the cluster after each conversion (proved to return the same values); then an invariant along the recorded clusters, call by call, and induction over the session | proved |
| C149 | A call that raises or is interrupted leaves the cluster as it was | `Crash` | the recorded clusters of the call, computed; the statements of to_kpckms one by one (all of them together are the conversion) | partial |
| C150 | save_cluster and return_cluster bring the cluster back | `Saved` | invariant over sessions: the object describes the same world and the saved values are those of some description of it; the saves of the analysis functions are left nondeterministic among the clusters on the way | proved |
| C151 | save_cluster and return_cluster can be nested | `Saved` | the saved values followed through the session | partial |
| C152 | No session of conversions, analysis, virialisation, rotation and centring moves a star | `Mutate` | induction over the session; each changing call yields a described world with the same places, for which the stored order is still an order | proved |
| C153 | Storing a centre keeps the radial order right | `Mutate` | the order followed through the calls, for all clusters; a concrete session of public calls | partial |
| C154 | Structure does not depend on what was done to the velocities or the description | `Mutate2` | C152_session gives two worlds with the same masses and places; each answer is then characterised by its specification (C17, C45, C71, C74), which only mentions masses and places and has one solution. | proved |
| C155 | The methods for orbits and tails observe the cluster and keep their results | `PathMethods` | The methods are modelled with the attributes they set (Model/PathMethods); each call is one of the observing calls of C124 on the cluster, and an induction over the session keeps every attribute no call sets. r_tail and v_tail by the preserved scalar products of C61. | proved |
| C156 | What the path methods leave behind describes the present cluster | `PathMethods2` | The stored orbit computed for every input, to_radec followed with it, the resulting sky position given in closed form; a concrete cluster where it is not the cluster's position. The two others as equations for all inputs. | partial |
| C157 | Half-light radii | `Light` | The half-light block of analyze is modelled over the cluster model; the radius is characterised by IsMassRadius (as for C22), with luminosities as weights. For sessions the order invariant of C124 gives a right order after every history. | proved |
| C158 | Half-light radii when luminosities and orders do not fit | `Light` | Fewer luminosities than stars: the order contains an index out of range, for every order. The stale projected order by a cluster of two stars. | partial |
| C159 | Snapshots written with energies | `Snapout` | np.column_stack is modelled with its requirement of equal lengths; the rows are computed for arbitrary arrays of equal length, and the table read back agrees with that of C42 on the nine columns of the layout. | proved |
| C160 | snapout works with every option | `Snapout` | By cases on the options, for every cluster; the contradictory row for every moving star and every velocity scale other than 1. | partial |
| C161 | Analysis on the sky gives the stars back | `SkyAnalysis` | The invariant SkyInv of C33 is shown to be re-established by return_cluster from any cluster satisfying the invariant of the calls, on the sky or not. | proved |
| C162 | Analysis on the sky is right and keeps the centre | `SkyAnalysis` | The half-mass radius in the frame where the function works is computed for every cluster with the mass-radius lemmas; the drift of the centre is by induction on the number of calls. | partial |
| C163 | The tidal radius on the sky | `SkyTidal` | The cluster in galpy units is computed from the sky invariant; the arc tangent of the conversion is that of the subtended angle for every positive distance. | proved |
| C164 | Iterated and centred tidal radii on the sky | `SkyTidal` | The loop of the iteration is run on the galactocentric radii: no star is inside, the mass and the next estimate are zero. | partial |
| C165 | Centre of density | `CentreMethods` | By the refinement of the loop to the published iteration (C36) and the lemmas about save and return; to_centre by C50. | proved |
| C166 | The method find_centre_of_density respects its arguments | `CentreMethods` | The shrinking spheres stop at once when there are not enough stars; the density centre is the function's for every neighbour query. | partial |
| C167 | New N-body scales of a sub-cluster | `SubReset` | The selected rows (C22), the conversions to pc and km/s and back as relations on the described world, the virial and half-mass radius in world terms. | proved |
| C168 | Arguments of the new N-body scales | `SubReset` | The keyword reset_nbody_radii goes under the name radius into **kwargs; the keywords are given twice; shown for every cluster, with the object after the call. | partial |
| C169 | A sub-cluster about its own centre | `SubCentre` | The selected rows (C22), the shrinking spheres as a relation (C36), a stored centre moves no star (C152), then C167. | proved |
| C170 | reset_centre from the centre | `SubCentre` | The world of the result computed from that of the parent, for every cluster. | partial |
| C171 | Stars matched to a path on the sky | `SkyPath` | to_radec from any linear state gives the sky rows of the true stars (C13), the nearest point as in C43, return_cluster from the sky by the invariant of all histories; the path from the flow laws as in C59. | proved |
| C172 | Distances on the sky in every state | `SkyPath` | The reported numbers computed for every cluster of the kind; sky clusters by the invariant of histories (C161). | partial |
| C173 | The tail path on the sky | `SkyTail` | the run of tail_path as in C60 with the stars matched on the sky as in C171; the round trip through the sky by the invariant of histories; means by the counting lemmas of C60. | proved |
| C174 | dmax and the observer of the tail path on the sky | `SkyTail` | the selection and the entries are computed for all clusters; the observer: stars at one place and any two coordinate maps that differ there. | partial |
| C175 | Sessions that cross the sky: questions leave no trace | `SkySession` | the invariant `Inv` of C13 (linear state describing S with the caches of S, or sky state) together with fresh radii is carried through every step of every analysis function by one tactic; return_cluster from any such state restores the labels (`return_lin`, `return_sky`); two such states with the same labels show the same rows; the labels of conversions are a table proved call by call | proved |
| C176 | Moving a cluster along its orbit on the sky | `InterpSky` | the sky invariant `SkyInv` of C13 gives the columns, galpy's inverse gives the orbits' starting rows, a unit computation turns natural time and rows into Myr and pc; `return_cluster` and `analyze` keep the core of the state; `method_run` (C86) and the linear invariant with empty caches give the first visit | proved |
| C177 | After a move the cluster is at one place | `InterpSky` | the cached orbits are traced through the methods (`rest` of the state is kept by every call), then `from_radec` and `radecFill` are evaluated on the stale caches | partial |
| C178 | Moving in steps is moving at once | `InterpSteps` | induction over the list: each step is C86 / C176, whose end state again meets the hypotheses; the group law of the flow in physical units (`orbitAt_add`) and composition of displacements add the steps up | proved |
| C179 | Scales given to interpolate_orbit(s): the cluster's own, and on the sky | `InterpScales` | the model of the call takes galpy twice, at the cluster's scales and at the given ones; equality by computation for the same scales; on the sky the invariant of C172 gives the sky position, and the given time and row conversions compose to the physical orbit | proved |
| C180 | Scales given to interpolate_orbit(s) off the sky rescale the cluster | `InterpScales` | refinement as for C86, with the time, row and length conversions at the given scales; natural units of the cluster at its scales are those of the rescaled body at the given ones (`natural_rescaled`) | partial |

## 5. Axioms

`#print axioms` for every theorem in `MANIFEST.json` (script: `tools/axioms.sh`): each is contained in
`[propext, Classical.choice, Quot.sound]`.

## 6. Not modelled

* Plotting (`util/plots.py`, `plot=True` branches) except where it changes a returned value (`C54_plot_violated`).
* Numerical integration by galpy/AMUSE, scipy curve fits (`tapered` mass functions, King fits), limepy sampling, random numbers
  (except as a parameter of `C31`).
* `io/` readers other than `snapshot` and `nbody6`, and the writers other than `snapout`, unless listed in section 3.
* Rounding, floating-point exceptions and warnings; memory layout; performance.
* Attributes that no modelled function reads (labels for plots, projected copies that are only stored).

## 7. Disagreements between code and property found by the proofs

Each is a theorem `…_violated`; the list with one sentence each is in `MANIFEST.json` (notes) and beside the theorems.
