{
 "claims": [
  {
   "property": "C01",
   "status": "proved",
   "theorems": [
    "CT.C01_units_preserve_physics",
    "CT.C01_units_total",
    "CT.C01_pckms_to_nbody_values"
   ],
   "note": "(C01_units_preserve_physics) C01: every unit-conversion call from a linear unit system to a linear unit system that returns leaves the physical cluster (Myr, Msun, pc, km/s; stars, centre and orbit position) unchanged, sets the requested label and does not touch the origin label. (C01_units_total) C01 (totality): on an admissible cluster with positive scales the call does return. (C01_pckms_to_nbody_values) C01, read off for one star: going from pckms to nbody divides positions by `rbar`, velocities by `vbar`, masses by `zmbar` and the time by `tbar`, for stars, centre and orbit position alike."
  },
  {
   "property": "C02",
   "status": "proved",
   "theorems": [
    "CT.C02_units_path_independent"
   ],
   "note": "(C02_units_path_independent) C02: after any non-empty history of unit conversions the data are those of one direct conversion to the last requested units."
  },
  {
   "property": "C03",
   "status": "proved",
   "theorems": [
    "CT.C03_units_round_trip"
   ],
   "note": "(C03_units_round_trip) C03: any history of unit conversions ending in the original units restores every number."
  },
  {
   "property": "C04",
   "status": "proved",
   "theorems": [
    "CT.C04_units_idempotent"
   ],
   "note": "(C04_units_idempotent) C04: converting to the current units leaves the data unchanged."
  },
  {
   "property": "C05",
   "status": "partial",
   "theorems": [
    "CT.C05_no_units_noop_partial",
    "CT.C05_no_units_noop_radec",
    "CT.C05_to_amuse_guard_violated",
    "CT.C05_no_origin_noop",
    "CT.C05_no_origin_noop_sky",
    "CT.C05_unknown_units_noop",
    "CT.C05_unknown_origin_noop"
   ],
   "note": "The property as stated is false of the code at this commit; that too is proved. Refuted: (C05_to_amuse_guard_violated) C05 is false of the code for `to_amuse`: on every admissible cluster without a unit label it returns a cluster labelled `amuse`, with unchanged numbers. Proved part: (C05_no_units_noop_partial) C05 (units): a cluster without a unit label is left completely unchanged by every unit conversion except `to_amuse` (for which see `C05_to_amuse_guard_violated`). Further theorems, see their statements: C05_no_units_noop_radec, C05_no_origin_noop, C05_no_origin_noop_sky, C05_unknown_units_noop, C05_unknown_origin_noop."
  },
  {
   "property": "C06",
   "status": "proved",
   "theorems": [
    "CT.C06_origin_preserves_galactocentric",
    "CT.C06_galaxy_to_cluster_values"
   ],
   "note": "(C06_origin_preserves_galactocentric) C06: an origin change of a cluster in non-radec units leaves the galactocentric rows it describes, the masses, time, centre, orbit position and unit label unchanged and sets the requested origin label. (C06_galaxy_to_cluster_values) C06 read off: from `galaxy` to `cluster` every star is shifted by minus the orbit position (all six components)."
  },
  {
   "property": "C07",
   "status": "proved",
   "theorems": [
    "CT.C07_origin_path_independent",
    "CT.C07_origin_round_trip"
   ],
   "note": "(C07_origin_path_independent) C07: histories of origin changes are path independent: only the last target matters. (C07_origin_round_trip) C07: a history of origin changes that ends at the original origin restores every coordinate."
  },
  {
   "property": "C08",
   "status": "proved",
   "theorems": [
    "CT.C08_units_origin_commute",
    "CT.C08_histories_total",
    "CT.C08_histories_preserve_world"
   ],
   "note": "(C08_units_origin_commute) C08: any interleaving of unit conversions, origin changes, re-analyses and binary conversions gives data that depend only on the last requested units and the last requested origin. (C08_histories_total) C08 (totality): on an admissible cluster with positive scales no such history raises. (C08_histories_preserve_world) C08 (meaning): no such history changes the world the labelled cluster describes."
  },
  {
   "property": "C09",
   "status": "proved",
   "theorems": [
    "CT.C09_return_restores"
   ],
   "note": "(C09_return_restores) C09: save, any history of conversions, return: all data are restored, and if the caller's stored radial order was current (made for the current origin, right length) it is restored too."
  },
  {
   "property": "C10",
   "status": "proved",
   "theorems": [
    "CT.C10_grav_matches_units",
    "CT.C10_circular_velocity",
    "CT.C10_grav_one_iff",
    "CT.C10_reset_scale_inexact"
   ],
   "note": "(C10_grav_matches_units) C10: in pckms, amuse, pcmyr, kpckms and kpcgyr the relation `v\u00b2 = G m / r` with the library's `G` says exactly what it says in pc, km/s, Msun with `G = 4.302e-3 pc (km/s)\u00b2/Msun`. (C10_circular_velocity) C10 (consequence): a circular velocity computed with the library's `G` in any of these unit systems is the same physical speed. (C10_grav_one_iff) C10 (nbody, galpy, WDunits): there `G = 1`, so the relation agrees with the physical one exactly when the scale factors satisfy `vel\u00b2 \u00b7 len / mass = 4.302e-3`. (C10_reset_scale_inexact) C10 (after `reset_nbody_scale`): the scales it installs do not satisfy the identity exactly \u2014 the constant `0.06557` gives `G = 0.0042994\u2026` \u2014 but agree with it to better than 1 part in 1000; the time unit is `rbar/vbar` to the same accuracy (`1.023` against `1.022712\u2026`)."
  },
  {
   "property": "C11",
   "status": "proved",
   "theorems": [
    "CT.C11_analyze_fresh",
    "CT.C11_histories_fresh"
   ],
   "note": "(C11_analyze_fresh) C11: whenever `analyze` returns, all derived quantities describe the current stars and labels. (C11_histories_fresh) C11: every history of conversions made with analysis on keeps the derived quantities current."
  },
  {
   "property": "C12",
   "status": "partial",
   "theorems": [
    "CT.C12_physical_binaries",
    "CT.C12_round_trip",
    "CT.C12_targets",
    "CT.C12_return_cluster",
    "CT.C12_relabel_violated",
    "CT.C12_not_restored_violated"
   ],
   "note": "The property as stated is false of the code at this commit; that too is proved. Refuted: (C12_relabel_violated) C12 is false of the code for a cluster whose binary label is not one of the three known ones \u2014 the constructor copies the star unit (e.g. `\"pckms\"`) there: `to_sudays` changes the label and converts nothing. (C12_not_restored_violated) C12/C09 is false of the code for binaries: for every admissible cluster with binaries in AU and days, after `to_nbody` and `return_cluster` the star data are restored but the binaries stay in N-body units, so their stored semi-major axes are `1/rbar_au` of what they were. Further theorems, see their statements: C12_physical_binaries, C12_round_trip, C12_targets, C12_return_cluster."
  },
  {
   "property": "C13",
   "status": "partial",
   "theorems": [
    "CT.C13_histories",
    "CT.C13_histories_by_label",
    "CT.C13_to_radec_current",
    "CT.C13_round_trip",
    "CT.C13_centre_violated",
    "CT.C13_stale_orbits_violated",
    "CT.C13_initialize_orbits_violated"
   ],
   "note": "The property as stated is false of the code at this commit; that too is proved. Refuted: (C13_centre_violated) C13 is false of the code for the stored centre: from every admissible cluster without `xcn`, with a sky map that inverts, `to_radec` followed by `to_kpckms` leaves as \"centre\" the centre plus the cluster's galactocentric position, because the sky centre is decoded as a galactocentric position and stored as a centre. (C13_stale_orbits_violated) C13 is false of the code once orbits are cached and the stars have changed since: moving every star anywhere else (any new rows `st'`, same number) does not change what the next `to_radec` reports. (C13_initialize_orbits_violated) C13 is false of the code after a user's `initialize_orbits()` in the cluster or centre frame: the orbits are built from cluster-relative coordinates as if they were galactocentric (and with zero solar motion), so the orbits start at the cluster-relative positions, and the next `to_radec` reports their sky coordinates. Further theorems, see their statements: C13_histories, C13_histories_by_label, C13_to_radec_current, C13_round_trip."
  },
  {
   "property": "C14",
   "status": "proved",
   "theorems": [
    "CT.C14_restores",
    "CT.C14_round_trip"
   ],
   "note": "(C14_restores) C14: in radec units, from any of the three origins, any sequence of recentrings on the sky (any centre methods) followed by `to_sky` runs, gives back for every star the stored right ascension, declination, distance, proper motions and line-of-sight velocity, and changes neither those nor masses, centre, orbit position or time. (C14_round_trip) C14 (round trip of the whole data from origin sky)."
  },
  {
   "property": "C15",
   "status": "proved",
   "theorems": [
    "CT.C15_order_invariant",
    "CT.C15_order_sorted_when_synced",
    "CT.C15_order_sorted"
   ],
   "note": "(C15_order_invariant) C15 (invariant): any history keeps the stored order sorted by radius in the frame it was made for. (C15_order_sorted_when_synced) C15: if the stored order was made for the current origin, it is a permutation of all stars sorted by current radius, after any history. (C15_order_sorted) C15: starting from a cluster whose order is current (or absent), after any history of conversions and analyses with sorting on (the default), a stored radial order is a permutation of all stars sorted by current radius."
  },
  {
   "property": "C16",
   "status": "proved",
   "theorems": [
    "CT.C16_half_mass_radius",
    "CT.C16_half_mass_radius_histories"
   ],
   "note": "(C16_half_mass_radius) C16: whenever `analyze()` (sorting on) returns on a cluster with non-negative masses whose stored order, if made for this origin, is a sort of the current radii, `rm` and `r10` are the half-mass and 10%-mass radii, and `r10 \u2264 rm`. (C16_half_mass_radius_histories) C16 over histories: from a cluster whose order is current, after any default-sorting history followed by `analyze()`, `rm` and `r10` are the mass radii of the current stars."
  },
  {
   "property": "C17",
   "status": "proved",
   "theorems": [
    "CT.C17_mass_fraction",
    "CT.C17_lagrange_radii"
   ],
   "note": "(C17_mass_fraction) C17 (mass fraction). `rlagrange(mfrac=f)` gives the radius enclosing the fraction `f` of the mass, about the cluster position or centre, whatever the units and the origin, and leaves the cluster as it was. (C17_lagrange_radii) C17: `rlagrange(nlagrange=n)` (3D) on an analysed cluster in any linear units and origin whose stored order is valid returns; the caller's data are restored; it gives `n` non-decreasing radii; for `k < n` the `k`-th one, converted to pc, is the radius enclosing the fraction `k/n` of the physical mass, measured about the cluster origin (or about the centre when the cluster was in the galaxy frame), and the last is the largest radius."
  },
  {
   "property": "C18",
   "status": "proved",
   "theorems": [
    "CT.C18_add_stars",
    "CT.C18_histories",
    "CT.C18_ids"
   ],
   "note": "(C18_add_stars) C18 (one call). A well-formed call of `add_stars` that adds `n` stars to a cluster of `k` stars gives a cluster whose every per-star array has `k + n` entries and whose `ntot` is `k + n`; the old stars and their ids are unchanged, the new stars are the given ones in the given order; given ids are used as they are, and generated ids are different from each other and from every id present. (C18_histories) C18 (every sequence of calls). After any sequence of well-formed `add_stars` calls, adding `n\u2081, n\u2082, \u2026` stars to a cluster of `k` stars: every per-star array has `k + n\u2081 + n\u2082 + \u2026` entries; the stars are the original ones followed by those of the calls, in the order given. (C18_ids) C18 (ids). If every call lets the code generate the ids, then no two stars ever have the same id."
  },
  {
   "property": "C19",
   "status": "partial",
   "theorems": [
    "CT.C19_first_call_partial",
    "CT.C19_later_call_fails_violated",
    "CT.C19_later_call_adds_extra_violated"
   ],
   "note": "The property as stated is false of the code at this commit; that too is proved. Refuted: (C19_later_call_fails_violated) The claim for later calls is false, first way: once a cluster has `p \u2265 1` binaries, adding `q \u2265 2` more always raises (the `q` new positions are multiplied by the `p + q` accumulated masses). (C19_later_call_adds_extra_violated) Second way: adding one binary to a cluster with `p \u2265 1` binaries adds `p + 1` stars: the new pair's, and for every older pair one more star with that pair's masses at the new pair's position. Proved part: (C19_first_call_partial) C19 (first call). `add_binary_stars` on a cluster that has no binaries yet, with `q` pairs of components: the first `q` stars of the result represent the pairs, and the stars that were there follow unchanged. Missing masses count as 1."
  },
  {
   "property": "C20",
   "status": "partial",
   "theorems": [
    "CT.C20_subset",
    "CT.C20_subset_mask",
    "CT.C20_radius",
    "CT.C20_default_types_violated",
    "CT.C20_missing_energies_violated",
    "CT.C20_no_filter"
   ],
   "note": "The property as stated is false of the code at this commit; that too is proved. Refuted: (C20_default_types_violated) \"With no filter all stars are selected\" is false: the default range of stellar types 0\u202615 is applied whenever types are known, so a pre-main-sequence star (type -1) is dropped. (C20_missing_energies_violated) An energy bound on a cluster of at least two stars whose energies were never computed does not raise: the call returns `-1`, which as an index means the last star. Further theorems, see their statements: C20_subset, C20_subset_mask, C20_radius, C20_no_filter."
  },
  {
   "property": "C21",
   "status": "partial",
   "theorems": [
    "CT.C21_no_mask",
    "CT.C21_other_masks",
    "CT.C21_mask_overwritten_violated",
    "CT.C21_unchanged_iff",
    "CT.C21_sequence_partial",
    "CT.C21_repeat",
    "CT.C21_two_parts_violated",
    "CT.C21_ckin_violated",
    "CT.C21_rtidal_violated"
   ],
   "note": "The property as stated is false of the code at this commit; that too is proved. Refuted: (C21_mask_overwritten_violated) The claim that the caller's mask is left unchanged is false: the call overwrites it with the selection. (C21_two_parts_violated) Inner part, then outer part with the same mask: the second analysis acts on no star, although the mask has stars there. (C21_ckin_violated) When the caller gives `ckin` a mask, the equipartition mass \"within `rn[4]`\" is computed without the stars inside `rn[3]`. (C21_rtidal_violated) C21 (violated: the caller's selection). With at least one iteration the array `indx` passed by the caller is overwritten: every selected star beyond the first estimate is no longer selected afterwards. Proved part: (C21_sequence_partial) C21 (sequences). In any sequence of analyses sharing a mask, each one acts on the stars of the mask that pass its own filter and all the earlier ones (the property asks for its own filter only). Further theorems, see their statements: C21_no_mask, C21_other_masks, C21_unchanged_iff, C21_repeat."
  },
  {
   "property": "C22",
   "status": "partial",
   "theorems": [
    "CT.C22_rows",
    "CT.C22_total",
    "CT.C22_no_filter",
    "CT.C22_compose",
    "CT.C22_binaries",
    "CT.C22_counts_violated",
    "CT.C22_binary_units_violated",
    "CT.C22_empty",
    "CT.C22_counts_example_violated"
   ],
   "note": "The property as stated is false of the code at this commit; that too is proved. Refuted: (C22_counts_violated) C22 is violated by the counts `ns` and `nb` of a cluster without a binary table: they are those of the parent, whatever was selected. (C22_binary_units_violated) C22 is violated by the units of the binaries: the numbers are copied, their units are replaced by the units of the cluster. (C22_counts_example_violated) Selecting the heavy star: one star, but `ns` still says three. Further theorems, see their statements: C22_rows, C22_total, C22_no_filter, C22_compose, C22_binaries, C22_empty."
  },
  {
   "property": "C23",
   "status": "partial",
   "theorems": [
    "CT.C23_overlap",
    "CT.C23_total",
    "CT.C23_empty_other_violated",
    "CT.C23_types_violated"
   ],
   "note": "The property as stated is false of the code at this commit; that too is proved. Refuted: (C23_empty_other_violated) With a comparison cluster without stars the call raises instead of returning no stars. (C23_types_violated) Pre-main-sequence stars (type -1) are dropped however near they are. Further theorems, see their statements: C23_overlap, C23_total."
  },
  {
   "property": "C24",
   "status": "proved",
   "theorems": [
    "CT.C24_bin_index",
    "CT.C24_index_valid",
    "CT.C24_out_of_range"
   ],
   "note": "(C24_bin_index) C24: for contiguous increasing bins every value in their range is assigned the one bin it belongs to. (C24_index_valid) C24: whatever the values and the (non-empty) bins, every assigned index is a valid bin number. (C24_out_of_range) C24: values outside the range of the bins are not rejected: they are assigned to the first or last bin."
  },
  {
   "property": "C25",
   "status": "partial",
   "theorems": [
    "CT.C25_equal_number_bins",
    "CT.C25_constant_input_violated"
   ],
   "note": "The property as stated is false of the code at this commit; that too is proved. Refuted: (C25_constant_input_violated) C25 is false of the code for constant data: no bin is left after the degenerate-bin check and `np.bincount` is given the index -1, so `nbinmaker` raises `ValueError` for every number of equal values. Further theorems, see their statements: C25_equal_number_bins."
  },
  {
   "property": "C26",
   "status": "proved",
   "theorems": [
    "CT.C26_equal_width_bins"
   ],
   "note": "(C26_equal_width_bins) C26: on every non-empty input and for every `nbin \u2265 1` (positive data when the steps are logarithmic) `binmaker` counts every value exactly once: histogram and sums are those of the values in each interval and add up to the totals; when the data are not all equal the intervals are contiguous, increasing and span the data, and (linear steps) have equal widths."
  },
  {
   "property": "C27",
   "status": "partial",
   "theorems": [
    "CT.C27_roaming_bins",
    "CT.C27_roaming_nbins_partial",
    "CT.C27_roaming_nbins_violated"
   ],
   "note": "The property as stated is false of the code at this commit; that too is proved. Refuted: (C27_roaming_nbins_violated) C27 is false of the code on inputs with ties: here `roaming_nbinmaker(x, nbin=4, ntot=3)` returns the single interval `[0,1)` and claims that all nine values lie in it, although only two do (six if it is closed). Proved part: (C27_roaming_nbins_partial) C27: on distinct values (at least two), for `nbin \u2265 1` and `ntot \u2265 2`, `roaming_nbinmaker` returns a table whose histogram and sums are exactly those of the inputs in `[lower,upper)` (last one closed). Missing from the full property: inputs with ties, where it is false (next theorem). Further theorems, see their statements: C27_roaming_bins."
  },
  {
   "property": "C28",
   "status": "partial",
   "theorems": [
    "CT.C28_mean_prof_bins",
    "CT.C28_mean_prof_conserves",
    "CT.C28_mean_prof",
    "CT.C28_outside_values_violated"
   ],
   "note": "The property as stated is false of the code at this commit; that too is proved. Refuted: (C28_outside_values_violated) C28 is false of the code when the user passes bins that do not span the data: elements outside all bins are averaged into the first and last bin. Further theorems, see their statements: C28_mean_prof_bins, C28_mean_prof_conserves, C28_mean_prof."
  },
  {
   "property": "C29",
   "status": "proved",
   "theorems": [
    "CT.C29_through_points",
    "CT.C29_inverse",
    "CT.C29_between"
   ],
   "note": "(C29_through_points) C29: the interpolant passes through both points. (C29_inverse) C29: interpolating for `y` and back for `x` returns the starting point, and conversely. (C29_between) C29: the interpolant is affine: it stays between the two ordinates for abscissae between the two points."
  },
  {
   "property": "C30",
   "status": "proved",
   "theorems": [
    "CT.C30_minimum_distance",
    "CT.C30_single"
   ],
   "note": "(C30_minimum_distance) C30: for every list of at least two points, `minimum_distance` returns one number per point, which is the distance to some other point and is not larger than the distance to any other point. (C30_single) C30: with a single point there is no other point and the mark `-1` is returned."
  },
  {
   "property": "C31",
   "status": "proved",
   "theorems": [
    "CT.C31_power_law_range",
    "CT.C31_power_law_ends"
   ],
   "note": "(C31_power_law_range) C31: every sample lies in `[xmin, xmax]`, for every slope and every sequence of random draws. (C31_power_law_ends) C31: one value per draw (when `xmin < xmax`); the extreme draws give the ends of the range for every slope, so no part of the range is cut off."
  },
  {
   "property": "C32",
   "status": "proved",
   "theorems": [
    "CT.C32_sphere_roundtrip",
    "CT.C32_sphere_meaning",
    "CT.C32_sphere_inverse",
    "CT.C32_cyl_roundtrip",
    "CT.C32_cyl_meaning",
    "CT.C32_cyl_inverse"
   ],
   "note": "(C32_sphere_roundtrip) C32 (spherical). `sphere_to_cart(cart_to_sphere(p)) = p` for every point other than the origin and every velocity. (C32_sphere_meaning) C32 (spherical, meaning). `r` is the distance, `theta \u2208 [0,\u03c0]`, `phi \u2208 (-\u03c0,\u03c0]`, and the speed is preserved; `vr` is the radial velocity. (C32_sphere_inverse) C32 (spherical, the other way). Off the polar axis `cart_to_sphere(sphere_to_cart(s)) = s`. (C32_cyl_roundtrip) C32 (cylindrical). `cyl_to_cart(cart_to_cyl(p)) = p` for every point and velocity (also on the axis). (C32_cyl_meaning) C32 (cylindrical, meaning). (C32_cyl_inverse) C32 (cylindrical, the other way)."
  },
  {
   "property": "C33",
   "status": "partial",
   "theorems": [
    "CT.C33_full",
    "CT.C33_coincident_violated",
    "CT.C33_loop",
    "CT.C33_loop_softening_violated",
    "CT.C33_subset",
    "CT.C33_total",
    "CT.C33_energies",
    "CT.C33_energies_ids"
   ],
   "note": "The property as stated is false of the code at this commit; that too is proved. Refuted: (C33_coincident_violated) C33 is false of the code for coincident stars, also with softening (where the true value is finite): the full kernel reports NaN for a star that shares its position with another one. (C33_loop_softening_violated) C33 is false of the code for the `full=False` loop with softening `\u03b5 \u2260 0`: every star's potential also contains the star's own (self-interaction) term `-G m_i / |\u03b5|`. Further theorems, see their statements: C33_full, C33_loop, C33_subset, C33_total, C33_energies, C33_energies_ids."
  },
  {
   "property": "C34",
   "status": "partial",
   "theorems": [
    "CT.C34_virialize_partial",
    "CT.C34_second_call_violated",
    "CT.C34_virialize_galaxy_partial",
    "CT.C34_unequal_masses_violated"
   ],
   "note": "The property as stated is false of the code at this commit; that too is proved. Refuted: (C34_second_call_violated) C34 is false of the code when a virial ratio is already stored (in particular for the second of two calls): the stored ratio is not refreshed, so the second call rescales by the wrong factor. The ratio recomputed after `virialize(q1); virialize(q2)` is `-|q2| |q1| / |q0|`, `q0` being the ratio before the first call. (C34_unequal_masses_violated) C34 is false of the code for stars of unequal mass, whatever `specific` the caller passes: the ratio that is set is the unweighted one, so the true virial ratio (energies with masses) ends at `|q|\u00b7Q/|\u03c1|`, with `Q`, `\u03c1` the true and the unweighted ratio before the call \u2014 not at the requested value unless these agree. Proved part: (C34_virialize_partial) C34: for a cluster in its own frame (origin `cluster` or `centre`) whose energies have not been computed yet, `virialize(q)` keeps masses and labels, and the virial ratio recomputed afterwards (by `energies`, as `virialize` itself computes it) has exactly the requested absolute value. (C34_virialize_galaxy_partial) C34 (galaxy origin): the ratio that is set is the one in the frame of the cluster centre."
  },
  {
   "property": "C35",
   "status": "proved",
   "theorems": [
    "CT.C35_com",
    "CT.C35_shift",
    "CT.C35_perm",
    "CT.C35_scale",
    "CT.C35_between"
   ],
   "note": "(C35_com) C35 (mean). For a non-zero total mass the computed point is the centre of mass, and the only one. (C35_shift) C35 (translations and boosts). Displacing and boosting all stars displaces and boosts the centre of mass. (C35_perm) C35 (order). The order of the stars does not matter. (C35_scale) C35 (units). In units of length and velocity `k`, `w` times smaller the centre of mass has the same physical value, also if the masses are rescaled. (C35_between) C35 (inside the cluster). For non-negative masses, not all zero, every coordinate of the centre of mass lies between any bounds on that coordinate of the stars."
  },
  {
   "property": "C36",
   "status": "partial",
   "theorems": [
    "CT.C36_harfst",
    "CT.C36_harfst_radius",
    "CT.C36_clip_ends",
    "CT.C36_clip_diverges_violated"
   ],
   "note": "The property as stated is false of the code at this commit; that too is proved. Refuted: (C36_clip_diverges_violated) C36 is violated for `nsigma > 2`: for every `nsphere` there is a cluster (with distinct ids) on which the loop never ends. Further theorems, see their statements: C36_harfst, C36_harfst_radius, C36_clip_ends."
  },
  {
   "property": "C37",
   "status": "proved",
   "theorems": [
    "CT.C37_mass",
    "CT.C37_cumulative"
   ],
   "note": "(C37_mass) C37 (mass profile). For every cluster with linear units and origin, every filter and mask, and bins that cover the chosen radii, `m_prof` succeeds; entry `k` is the total mass and the number of the chosen stars whose distance from the cluster centre lies in bin `k`; the entries add up to the mass and the number of all chosen stars; the cluster is left as it was. (C37_cumulative) C37 (cumulative mass profile). Entry `k` is the mass and the number of all chosen stars inside the upper edge of bin `k` (for the last bin: of all chosen stars); for masses that are not negative the profile never decreases, and it ends at the total chosen mass."
  },
  {
   "property": "C38",
   "status": "partial",
   "theorems": [
    "CT.C38_length",
    "CT.C38_time",
    "CT.C38_mass",
    "CT.C38_mass_galpy_violated",
    "CT.C38_density",
    "CT.C38_density_violated",
    "CT.C38_velocity_partial",
    "CT.C38_velocity_WD_violated",
    "CT.C38_velocity_violated",
    "CT.C38_square_velocity_partial",
    "CT.C38_agrees",
    "CT.C38_radec_violated"
   ],
   "note": "The property as stated is false of the code at this commit; that too is proved. Refuted: (C38_mass_galpy_violated) C38 is violated for galpy masses: every conversion from or to them raises. (C38_density_violated) C38 is violated for galpy densities and for AMUSE densities: the conversion raises. (C38_velocity_WD_violated) C38 is violated for WDunits velocities: km/s are taken for the velocity unit of WDunits (`vo / velocity_in_kpcGyr(vo, ro)` km/s). (C38_velocity_violated) C38 is violated for velocities, for instance from km/s to pc/Myr (the factor 1.02\u2026 is missing) and from pc/Myr to kpc/Gyr (which are equal, but the value is divided by 1.02\u2026). (C38_radec_violated) C38 is violated for angles: an angle made from a length at distance `z` (in kpc) on the sky, taken back by a cluster in pc at the same distance, gives the length a thousand times over: the cluster's distance in pc is used as one in kpc. Proved part: (C38_velocity_partial) C38 (velocity), exactly. WDunits aside, a non-zero velocity keeps its meaning in km/s for the pairs `VelOk` and for no others. (C38_square_velocity_partial) C38 (squared velocity), exactly. Further theorems, see their statements: C38_length, C38_time, C38_mass, C38_density, C38_agrees."
  },
  {
   "property": "C39",
   "status": "proved",
   "theorems": [
    "CT.C39_chain",
    "CT.C39_dir",
    "CT.C39_number",
    "CT.C39_number_distinct",
    "CT.C39_histories",
    "CT.C39_end"
   ],
   "note": "(C39_chain) C39. A chain of advances through existing snapshots. A cluster loaded at snapshot `n` and advanced `k \u2265 1` times with keyword arguments `a` is exactly \u2014 stars, units, origin, centre, orbital position, remembered options, position in the orbit file \u2014 the cluster obtained by loading snapshot `n + k` directly, with the file-name options of the first call and the other options of `a`. (C39_dir) A directory name gets a slash at its end unless it is empty or has one. (C39_number) C39 (numbers in file names). The number in a file name is the snapshot number in decimal, padded with zeros on the left to the given width and never cut. (C39_number_distinct) C39 (numbers in file names). Different snapshots have different numbers. (C39_histories) C39 (histories). A simulation whose snapshots `n, n+1, \u2026, n+k` are readable files, with an orbit file (if any) whose line `n + j` holds the position of the cluster at snapshot `n + j`: loading snapshot `n` and advancing `k` times succeeds and gives the stars of snapshot `n + k`, its number, the units and origin of the first call and the orbital position of line `n + k`. (C39_end) C39 (end). When there is no next file and no directory `cont/`, advancing gives a cluster without stars, with the next number and the remembered file-name options."
  },
  {
   "property": "C40",
   "status": "partial",
   "theorems": [
    "CT.C40_columns",
    "CT.C40_columns_raw",
    "CT.C40_malformed",
    "CT.C40_single_star_violated"
   ],
   "note": "The property as stated is false of the code at this commit; that too is proved. Refuted: (C40_single_star_violated) C40, C42 (violated: one star). A snapshot with a single star cannot be loaded: whatever its columns, as soon as one of them is asked for, reading it fails. Further theorems, see their statements: C40_columns, C40_columns_raw, C40_malformed."
  },
  {
   "property": "C41",
   "status": "proved",
   "theorems": [
    "CT.C41_record",
    "CT.C41_tail_record",
    "CT.C41_sequence",
    "CT.C41_end",
    "CT.C41_truncated",
    "CT.C41_damaged",
    "CT.C41_histories"
   ],
   "note": "(C41_record) C41 (OUT3). Reading an OUT3 file that starts with a snapshot returns exactly its header values, masses, positions, velocities and ids, and leaves the file at the end of that snapshot. (C41_tail_record) C41 (OUT33). The same for the stars of the tidal tail; a snapshot without such stars has only a header. (C41_sequence) C41 (successive reads). Repeated reads of a file of snapshots return the snapshots one after the other. (C41_end) C41 (end of file). At the end of the file an empty snapshot is returned. (C41_truncated) C41 (incomplete snapshot). A file that ends inside a snapshot, after its first four bytes, is never taken for a snapshot: reading fails at the end of the file. (C41_damaged) C41 (damaged snapshot). If the size at the end of the header, or at the end of the data, differs from the size at its beginning, no snapshot is returned: the read fails. (C41_histories) C41 (histories). A simulation with snapshots `rs 0, rs 1, \u2026` in OUT3 and, if there is such a file, `bs 0, bs 1, \u2026` in OUT33, and possibly an orbit file with one line per snapshot: loading it and advancing `k` times gives snapshot `k` of all of them: the stars of the tail followed by the stars of OUT3 in the order of the file, with their masses and ids, the N-body scales and the centre of the header, N-body units, the position from the orbit file (else from OUT33), and the files at the end of snapshot `k`."
  },
  {
   "property": "C42",
   "status": "partial",
   "theorems": [
    "CT.C42_round_trip",
    "CT.C42_default_layout_violated"
   ],
   "note": "The property as stated is false of the code at this commit; that too is proved. Refuted: (C42_default_layout_violated) C42 (violated: default layout). Read back with the default column layout a file written by `snapout` gives ids `0, 1, 2, \u2026` whatever the ids were. Further theorems, see their statements: C42_round_trip."
  },
  {
   "property": "C43",
   "status": "partial",
   "theorems": [
    "CT.C43_nearest",
    "CT.C43_computed",
    "CT.C43_tfinal_violated",
    "CT.C43_progress_partial",
    "CT.C43_progress_straight",
    "CT.C43_progress_violated",
    "CT.C43_to_path",
    "CT.C43_to_path_violated",
    "CT.C43_do_full_violated",
    "CT.C43_projected_violated",
    "CT.C43_own_path_violated"
   ],
   "note": "The property as stated is false of the code at this commit; that too is proved. Refuted: (C43_tfinal_violated) C43 is violated for `tfinal`: it is documented to be in the units of the cluster, and `orbital_path` so reads it; but the path to which stars are matched extends over `tfinal` Gyr in all units. In pc and km/s it is a thousand times longer. (C43_progress_violated) C43 is violated for the distance along a path that turns: the cluster now being at the corner of `corner`, a star at its end, 4 kpc further along the path, is reported at 2 kpc. (C43_to_path_violated) C43 is violated with `to_path` for stars on a point of the path: the result is NaN. (C43_do_full_violated) C43 is violated for `do_full`: together with `to_path` it always fails. (C43_projected_violated) C43 (projected), what holds. In projection the distance is that to the nearest point in the xy-plane if the point nearest in `y` is not at the star's own `y`; otherwise zero is reported, whatever the distance. The sign tells whether that point is at smaller or larger `y` than the star. (C43_own_path_violated) C43 is violated for the path of `orbital_path` itself: in pc and km/s that path is in pc, but `orbital_path_match` reads it as kpc, so that the distances are those from a path a thousand times larger. Proved part: (C43_progress_partial) C43 (progress), what holds. The distance along the path is reported with the right sign, and is never larger than the length of the path between the star's point and the cluster's (the point nearest in time to zero). It is that length for straight paths, see `C43_progress_straight`, but not in general, see `C43_progress_violated`. Further theorems, see their statements: C43_nearest, C43_computed, C43_progress_straight, C43_to_path."
  },
  {
   "property": "C44",
   "status": "proved",
   "theorems": [
    "CT.C44_iteration",
    "CT.C44_decreasing",
    "CT.C44_converges",
    "CT.C44_units"
   ],
   "note": "(C44_iteration) C44. `rtidal` iterates as described by `TideRun`, in physical terms and for every cluster in any linear units and any origin: with `T M` the tidal radius in pc of a mass `M` at the cluster's position, the first estimate is that of all selected stars, each further one that of the selected stars within the previous estimate, and the result is the last one, converted to the cluster's units. The cluster itself is left as it was. `tide`, galpy's function, is only assumed to be non-negative and zero for zero mass. (C44_decreasing) C44 (never increases). The result is at most the first estimate. (C44_converges) C44 (stops). If more iterations are allowed than there are stars, the iteration has converged: the result is zero or a radius that is, up to the factor `rtconverge`, the tidal radius of the mass within it. (`tide` is assumed not to decrease with mass.) (C44_units) C44 (units). The physical tidal radius does not depend on the units in which the cluster is given."
  },
  {
   "property": "C45",
   "status": "proved",
   "theorems": [
    "CT.C45_virial_radius",
    "CT.C45_virial_radius_units",
    "CT.C45_virial_radius_world",
    "CT.C45_function",
    "CT.C45_ask_again"
   ],
   "note": "(C45_virial_radius) C45: the inverse-distance virial radius is `M\u00b2 / (2 \u03a3_{i<j} m_i m_j / r_ij)`, each pair once, for both implementations (`full=True` numba kernel, `full=False` loop) and in 3D and projection. (C45_virial_radius_units) C45 (units): expressing the same stars in a unit system with length unit `k > 0` and mass unit `\u03bc > 0` gives the same physical virial radius: `rv` in the new units times the length unit. (C45_virial_radius_world) C45 (frames and units): the physical virial radius depends only on the world described, not on the units or origin the cluster happens to be in. (C45_function) C45 (the function). `virial_radius()` of a cluster in any linear units and origin is `M\u00b2/(2 \u03a3 m_i m_j/r_ij)` of its stars, in the unit of length of the cluster, by both implementations, in space and in projection; the cluster is left as it was. (C45_ask_again) C45 (histories). Asked for again after any session of conversions and analysis calls, the virial radius stands for the same length."
  },
  {
   "property": "C46",
   "status": "partial",
   "theorems": [
    "CT.C46_reset_scales",
    "CT.C46_reset_preserves_physics_partial",
    "CT.C46_reset_in_nbody_violated"
   ],
   "note": "The property as stated is false of the code at this commit; that too is proved. Refuted: (C46_reset_in_nbody_violated) C46 is false of the code for a cluster in `nbody` units: the cluster is returned to N-body numbers with the old scales and only then are the new scales stored, so as soon as the new mass scale differs from the old one (and some star has mass) the physical masses change. Proved part: (C46_reset_preserves_physics_partial) C46 (other units): for a cluster whose units are not `nbody`, the call changes nothing physical. Further theorems, see their statements: C46_reset_scales."
  },
  {
   "property": "C47",
   "status": "proved",
   "theorems": [
    "CT.C47_equal_numbers"
   ],
   "note": "(C47_equal_numbers) C47: on distinct values, with at least two per bin, `nbinmaker` makes exactly `nbin` bins and every bin holds the average number of values up to rounding (`|count - n/nbin| < 1`)."
  },
  {
   "property": "C48",
   "status": "proved",
   "theorems": [
    "CT.C48_smooth",
    "CT.C48_between"
   ],
   "note": "(C48_smooth) C48: for every `x` with at least two different values, every `y` of the same length and every step `0 < dx \u2264 max x - min x`, `smooth` succeeds, for both kinds of bins, over contiguous bins spanning the data; it reports one row per non-empty bin with the mean (median), the standard deviation, the minimum and the maximum of `y` over exactly the elements whose `x` lies in the bin. (C48_between) C48: in every reported row the smoothed value lies between the reported minimum and maximum."
  },
  {
   "property": "C49",
   "status": "partial",
   "theorems": [
    "CT.C49_subset_schedule_independent",
    "CT.C49_full_race_violated"
   ],
   "note": "The property as stated is false of the code at this commit; that too is proved. Refuted: (C49_full_race_violated) C49 is false of the code for the full parallel kernel: for every three stars at pairwise different places with non-zero masses there is a complete interleaving in which the second star's potential energy misses the term from the first star (two workers update the same list entry without synchronisation). Further theorems, see their statements: C49_subset_schedule_independent."
  },
  {
   "property": "C50",
   "status": "partial",
   "theorems": [
    "CT.C50_centred",
    "CT.C50_com",
    "CT.C50_stale_violated"
   ],
   "note": "The property as stated is false of the code at this commit; that too is proved. Refuted: (C50_stale_violated) C50 is violated by a galactocentric cluster with a stored centre offset whose orbit position equals the found centre: `to_centre` still subtracts the old offset as well. Further theorems, see their statements: C50_centred, C50_com."
  },
  {
   "property": "C51",
   "status": "proved",
   "theorems": [
    "CT.C51_density"
   ],
   "note": "(C51_density) C51 (density profile). `rho_prof` succeeds; in every bin the density times the volume of the shell (in projection the area of the ring) is the mass of the chosen stars in the bin, and the count is their number; so density times volume adds up to the chosen mass. The cluster is left as it was. Caller's bins must not begin at negative radii."
  },
  {
   "property": "C52",
   "status": "partial",
   "theorems": [
    "CT.C52_velocity_partial",
    "CT.C52_anisotropy",
    "CT.C52_nameError_violated",
    "CT.C52_wrong_component_violated"
   ],
   "note": "The property as stated is false of the code at this commit; that too is proved. Refuted: (C52_nameError_violated) C52 fails for these documented components. `v_prof` and `v2_prof` stop with a NameError for `coord='z'` without projection; all three stop with a NameError for `coord='theta'` in projection (`bins` or not, for every cluster they accept otherwise). (C52_wrong_component_violated) C52 fails for `v2_prof(coord='x')` (and `'y'`, and every unknown name): the profile is that of the speed. Proved part: (C52_velocity_partial) C52 (velocity profiles). For every linear cluster, filter, mask and bins that cover the chosen radii, and every component the function can compute, `sigv_prof`, `v_prof` and `v2_prof` succeed and report, for each bin with more than three chosen stars, the standard deviation, mean or mean square of that component over exactly the chosen stars in the bin, and 0 for the other bins; the cluster is left as it was. Further theorems, see their statements: C52_anisotropy."
  },
  {
   "property": "C53",
   "status": "partial",
   "theorems": [
    "CT.C53_kept_partial",
    "CT.C53_mask_violated",
    "CT.C53_bins_violated"
   ],
   "note": "The property as stated is false of the code at this commit; that too is proved. Refuted: (C53_mask_violated) C53 fails for masks. After any of the profiles the caller's mask holds only the stars that also passed the filter. (C53_bins_violated) C53 fails for bins. With `normalize=True` the middle values of the caller's bins have been divided by the half-mass radius after the call, so the next call with the same bins divides them once more. Proved part: (C53_kept_partial) C53 (what is kept). Whatever the cluster and the result: a profile call without a mask changes no boolean array; the velocity profiles never change the caller's bins, and `m_prof` and `rho_prof` do not without `normalize`."
  },
  {
   "property": "C54",
   "status": "partial",
   "theorems": [
    "CT.C54_mass_type_partial",
    "CT.C54_mass_type_cluster_partial",
    "CT.C54_velocity_partial",
    "CT.C54_plot_violated",
    "CT.C54_galaxy_violated",
    "CT.C54_projected_violated"
   ],
   "note": "The property as stated is false of the code at this commit; that too is proved. Refuted: (C54_plot_violated) C54 fails when the profile is also plotted: the radii are divided by a half-mass radius twice. (C54_galaxy_violated) C54 fails for clusters given from the galactic centre: the half-mass radius used is that of the distances from the galactic centre (6 in this example; about the cluster centre it is 4). (C54_projected_violated) C54 fails for projected mass and density profiles: the projected radii are divided by the three-dimensional half-mass radius (5 in this example; in projection it is 3). Proved part: (C54_mass_type_partial) C54 (mass and density profiles). Without plotting, the radii of a normalised `m_prof` or `rho_prof` are the bin radii divided by the half-mass radius of the three-dimensional radii in the frame of the caller's cluster. (C54_mass_type_cluster_partial) So for clusters given from their position or centre, unprojected, they are in units of the half-mass radius. (C54_velocity_partial) C54 (velocity profiles). Unprojected, with any component it can compute and from any origin, the radii of a normalised velocity profile are the bin radii divided by the half-mass radius about the cluster centre."
  },
  {
   "property": "C55",
   "status": "partial",
   "theorems": [
    "CT.C55_vcirc_partial",
    "CT.C55_projected_partial",
    "CT.C55_filter_violated",
    "CT.C55_galaxy_violated"
   ],
   "note": "The property as stated is false of the code at this commit; that too is proved. Refuted: (C55_filter_violated) C55 fails for filters: of a star of mass 3 at radius 5 and one of mass 1 at radius 1 the filter `mmin=2` chooses the first; `vcirc_prof` reports the second. (C55_galaxy_violated) C55 fails for clusters given from the galactic centre (`normalize=False`): the stars are taken in the order of their distance from the cluster position, not from the centre, so the velocity reported for the outer star counts its own mass only. Proved part: (C55_vcirc_partial) C55 (unprojected). If the radii of the chosen stars are positive and distinct, the selection is all stars or the stars are stored in order of radius, and the cluster is given from its position or centre or `normalize` is set, `vcirc_prof` gives the circular velocities of the chosen mass at the radii of the chosen stars (all of them, or those nearest to the bin radii), their maximum and its place; the radii divided by the half-mass radius if `normalize` is set. (C55_projected_partial) C55 (projected). In projection, with no bins or the caller's bins and `normalize=False`, the same for clusters given from their position or centre whose stored projected order (if any) is current."
  },
  {
   "property": "C56",
   "status": "partial",
   "theorems": [
    "CT.C56_position",
    "CT.C56_time",
    "CT.C56_same",
    "CT.C56_sky",
    "CT.C56_nbody_time_violated",
    "CT.C56_target_violated",
    "CT.C56_target_kpcgyr_violated"
   ],
   "note": "The property as stated is false of the code at this commit; that too is proved. Refuted: (C56_nbody_time_violated) C56 (violated: N-body times). A time in N-body units is stored a thousand times too large: `tbar` is in Myr, the intermediate time in Gyr. (C56_target_violated) C56 (violated: other targets). In a cluster in `pcmyr` units (likewise `kpcgyr`, `WDunits`, `amuse`) a position given in another unit is stored in kpc and km/s, under the label of the cluster. (C56_target_kpcgyr_violated) C56 (violated: kpcgyr). Further theorems, see their statements: C56_position, C56_time, C56_same, C56_sky."
  },
  {
   "property": "C57",
   "status": "proved",
   "theorems": [
    "CT.C57_scales",
    "CT.C57_stored"
   ],
   "note": "(C57_scales) C57. The scales for binaries set by `add_nbody6` are consistent with the length and mass scales: `rbar_au` is `rbar` parsecs in astronomical units (one parsec is 648000/\u03c0 au), `rbar_su` is the same length in solar radii, and `tbar_days` is the period in days of a Kepler orbit with semi-major axis `rbar` around the mass `zmbar`: with `a` in au, `P` in years and `M` in solar masses, `P\u00b2 M = a\u00b3`. (C57_stored) C57 (attributes). `add_nbody6` stores the scales and the centre, and changes neither stars nor labels."
  },
  {
   "property": "C58",
   "status": "partial",
   "theorems": [
    "CT.C58_arrays_partial",
    "CT.C58_luminosities_violated"
   ],
   "note": "The property as stated is false of the code at this commit; that too is proved. Refuted: (C58_luminosities_violated) C58 (violated: luminosities). With two or more binaries the array of luminosities has too many entries \u2014 `nb(nb+1)/2` for the binaries instead of `nb` \u2014 so the luminosities no longer belong to the stars. Proved part: (C58_arrays_partial) C58. The stellar types and radii read from fort.82 and fort.83 have one entry for every binary (its own type, the larger radius) followed by one for every single star, in the order of the files; with at most one binary so do the luminosities (for the binary, the sum)."
  },
  {
   "property": "C59",
   "status": "partial",
   "theorems": [
    "CT.C59_path_partial",
    "CT.C59_default_time",
    "CT.C59_velocity_violated",
    "CT.C59_one_point_violated",
    "CT.C59_sky"
   ],
   "note": "The property as stated is false of the code at this commit; that too is proved. Refuted: (C59_velocity_violated) C59 is violated for velocities in pc/Myr and kpc/Gyr: they are off by the factor 1.02\u2026 . (C59_one_point_violated) C59 is violated for `nt = 1`: the point labelled `-tfinal` is the position at time zero. Proved part: (C59_path_partial) C59. `orbital_path` returns the cluster's orbit: `nt \u2265 2` points at equal intervals of time from `-tfinal` to `tfinal` (in the cluster's units), each the position to which the cluster's (or, with `from_centre`, its centre's) galactocentric position moves in that time. The cluster is left as it was. Velocities are right in the units `VelOk`, see `C59_velocity_violated`. Further theorems, see their statements: C59_default_time, C59_sky."
  },
  {
   "property": "C60",
   "status": "partial",
   "theorems": [
    "CT.C60_tail_partial",
    "CT.C60_each_star_once",
    "CT.C60_roaming_violated",
    "CT.C60_on_path_violated"
   ],
   "note": "The property as stated is false of the code at this commit; that too is proved. Refuted: (C60_roaming_violated) C60 is violated for `ntail > nt`: the entries are documented to be roaming averages, over overlapping windows of `1 / nt` of the range of times; but a star is counted only in the first window that holds it, so that all entries but the first leave out the stars at the beginning of their window (`RoamBins.short`). (C60_on_path_violated) C60 is violated for `to_path` with `dmax`: a star exactly on a point of the orbit has no distance from it (NaN) and is left out: if all stars are, the tail is empty, whatever `dmax`. Proved part: (C60_tail_partial) C60. `tail_path` (with `ntail \u2264 nt`, all stars or those within `dmax` of the path) follows the tails along the cluster's orbit: every star belongs to the point of the orbit nearest to it, the orbit's times from `-tfinal` to `tfinal` Gyr are divided into contiguous bins, and there is one entry for each bin that holds stars, in the order of time: the bin's time and the mean galactocentric position (in the right units also velocity) of its stars, all in the units of the cluster. The cluster is left as it was. Not right: velocities in pcmyr, kpcgyr and WDunits (as in C38), `tfinal` in Gyr in all units, and `ntail > nt` (`C60_roaming_violated`). Further theorems, see their statements: C60_each_star_once."
  },
  {
   "property": "C61",
   "status": "proved",
   "theorems": [
    "CT.C61_to_tail"
   ],
   "note": "(C61_to_tail) C61. `to_tail` returns the stars' positions and velocities relative to the centre (rows given from the cluster's position as they are), rotated: scalar products of all positions and velocities are kept, and orientation; the first coordinate is the component along the cluster's orbital velocity. The cluster is left as it was."
  },
  {
   "property": "C62",
   "status": "partial",
   "theorems": [
    "CT.C62_match_partial",
    "CT.C62_units_violated"
   ],
   "note": "The property as stated is false of the code at this commit; that too is proved. Refuted: (C62_units_violated) C62 is violated in pc and km/s: `tail_path_match` reads the tail path, which is in pc, as if it were in kpc. The tail path of a cluster of one star is that star; its distance from it is reported as 999 times its distance from the galactic centre. Proved part: (C62_match_partial) C62, for clusters in kpc and km/s. `tail_path_match` without a path matches the stars to the entries of `tail_path`: every star to a nearest one, with that entry's time and, up to sign, the distance from it. In other units see `C62_units_violated`."
  },
  {
   "property": "C63",
   "status": "partial",
   "theorems": [
    "CT.C63_to_cluster_flat",
    "CT.C63_reference_to_zero",
    "CT.C63_star_at_orbit",
    "CT.C63_star_at_centre",
    "CT.C63_orthographic_centre_violated",
    "CT.C63_method_switch_violated"
   ],
   "note": "The property as stated is false of the code at this commit; that too is proved. Refuted: (C63_orthographic_centre_violated) C63 is false of the code for the orthographic method about the centre: a star exactly at the centre does not get zero relative proper motion, but the difference between the centre's and the orbit's proper motion, because the orbit's proper motion is subtracted in both cases. (C63_method_switch_violated) C63 is false of the code when the centre method is changed in place: `to_cluster` with a new method on a cluster already centred there stores the new method but leaves every coordinate as computed by the old one. Further theorems, see their statements: C63_to_cluster_flat, C63_reference_to_zero, C63_star_at_orbit, C63_star_at_centre."
  },
  {
   "property": "C64",
   "status": "partial",
   "theorems": [
    "CT.C64_projected_order_never_updated",
    "CT.C64_projected_order_violated",
    "CT.C64_stale_order_violated",
    "CT.C64_lagrange_projected_violated"
   ],
   "note": "The property as stated is false of the code at this commit; that too is proved. Refuted: (C64_projected_order_violated) C64 is false of the code for the projected order: from a cluster whose projected order is correct, `to_galaxy()` with all defaults leaves an order that is not sorted by the new projected radii. (C64_stale_order_violated) C64 is false of the code with sorting off: `to_cluster(sortstars=False)` recomputes `r10` with the order of the previous frame, giving 2 where the true 10%-mass radius is 1. (C64_lagrange_projected_violated) C64 is false of the code for projected radii: the projected order of the previous frame is reused, and `rlagrange(nlagrange=2, projected=True)` on this cluster in the galaxy frame (with a correct projected order) returns a first radius of 2, although half of the mass lies within projected radius 1 of the centre. Further theorems, see their statements: C64_projected_order_never_updated."
  },
  {
   "property": "C65",
   "status": "partial",
   "theorems": [
    "CT.C65_total",
    "CT.C65_total_sorted",
    "CT.C65_total_histories",
    "CT.C65_unsorted_violated",
    "CT.C65_binary_npop_violated",
    "CT.C65_binaries",
    "CT.C65_single_pair_without_mass_violated"
   ],
   "note": "The property as stated is false of the code at this commit; that too is proved. Refuted: (C65_unsorted_violated) With the default `sortstars=False` the claim that a well-formed call succeeds is false: the stored order of the two old stars is applied to the masses of the three stars, half of the mass is never reached and the call raises `IndexError` (after having appended the columns, so that `ntot` is stale). (C65_binary_npop_violated) Without `npop1` and `npop2` the population array is not extended, so the arrays of the result have different lengths. (C65_single_pair_without_mass_violated) One pair without masses is rejected by `len()` of a number. Further theorems, see their statements: C65_total, C65_total_sorted, C65_total_histories, C65_binaries."
  },
  {
   "property": "C66",
   "status": "partial",
   "theorems": [
    "CT.C66_cluster",
    "CT.C66_sky_violated"
   ],
   "note": "The property as stated is false of the code at this commit; that too is proved. Refuted: (C66_sky_violated) C66 is violated for clusters with origin `sky`: both calls raise. Further theorems, see their statements: C66_cluster."
  },
  {
   "property": "C67",
   "status": "partial",
   "theorems": [
    "CT.C67_harfst_shift",
    "CT.C67_harfst_perm",
    "CT.C67_casertano_shift",
    "CT.C67_clip",
    "CT.C67_find_centre",
    "CT.C67_find_centre_clip",
    "CT.C67_empty_selection_violated"
   ],
   "note": "The property as stated is false of the code at this commit; that too is proved. Refuted: (C67_empty_selection_violated) C67 is violated for an empty selection: on a cluster in AMUSE units `find_centre` returns zeros and leaves the cluster in pc and km/s. Further theorems, see their statements: C67_harfst_shift, C67_harfst_perm, C67_casertano_shift, C67_clip, C67_find_centre, C67_find_centre_clip."
  },
  {
   "property": "C68",
   "status": "partial",
   "theorems": [
    "CT.C68_layout_forgotten_violated",
    "CT.C68_restart_violated",
    "CT.C68_restart_orbit_violated"
   ],
   "note": "The property as stated is false of the code at this commit; that too is proved. Refuted: (C68_layout_forgotten_violated) C68 (violated: layouts are not remembered). The column layout given when loading is not remembered: advancing without repeating it reads the next file with the default layout. Here a table with columns `x y z vx vy vz m`. (C68_restart_violated) C68 (violated: restart without labels). When the next file is found only after a restart, in the directory `cont/`, it is loaded without the units and the origin of the cluster that was advanced, and with the default column layout, even if the call repeats the layout. (C68_restart_orbit_violated) C68 (violated: restart with an orbit file). With an orbit file a restart fails."
  },
  {
   "property": "C69",
   "status": "partial",
   "theorems": [
    "CT.C69_nsnap_violated",
    "CT.C69_past_end",
    "CT.C69_past_end_orbit_violated"
   ],
   "note": "The property as stated is false of the code at this commit; that too is proved. Refuted: (C69_nsnap_violated) C69 (violated: `nsnap`). The keyword `nsnap` (\"if a specific snapshot is to be read in instead of starting from zero\") does not select the stars: the first snapshot is read; but it does select the line of the orbit file. The cluster then has the stars of one snapshot and the orbital position of another. (C69_past_end_orbit_violated) C69 (violated: past the end with an orbit file). With an orbit file that has been read to its end too, advancing past the last snapshot fails instead. Further theorems, see their statements: C69_past_end."
  },
  {
   "property": "C70",
   "status": "proved",
   "theorems": [
    "CT.C70_add_rotation",
    "CT.C70_extremes"
   ],
   "note": "(C70_add_rotation) C70. On a cluster given from its position or centre `add_rotation(qrot)` keeps every star's position, speed and motion away from the z axis and, for the stars whose random number is below `qrot`, makes the angular momentum about the z axis positive; the other stars, the masses, the labels, the centre, the orbit position and the time are unchanged, and the derived radii and speeds are still right. (C70_extremes) C70 (extremes). Random numbers being in `[0,1)`: with `qrot \u2265 1` every star rotates in the positive sense or not at all; with `qrot \u2264 0` nothing is changed."
  },
  {
   "property": "C71",
   "status": "proved",
   "theorems": [
    "CT.C71_half_mass",
    "CT.C71_same_cluster",
    "CT.C71_relaxation"
   ],
   "note": "(C71_half_mass) C71 (half-mass relaxation time). `half_mass_relaxation_time(coulomb=\u03b3)` is Spitzer's time `0.138 N/ln(\u03b3N)\u00b7\u221a(rh\u00b3/(GM))` for the physical masses and the half-mass radius of the stars, in the time unit of the cluster, whatever its units and origin; the cluster is returned as it was. (C71_same_cluster) C71 (units and origins). Two descriptions of the same cluster, in any units and from any origin with the same working frame, have the same half-mass relaxation time. (C71_relaxation) C71 (local relaxation time). `relaxation_time()` is Spitzer's time for the mean square speed of all stars and the mean mass and number density of those within the half-mass radius, in the time unit of the cluster, whatever its units and origin."
  },
  {
   "property": "C72",
   "status": "partial",
   "theorems": [
    "CT.C72_few_stars_violated",
    "CT.C72_projected_partial",
    "CT.C72_rad_violated",
    "CT.C72_projected_violated"
   ],
   "note": "The property as stated is false of the code at this commit; that too is proved. Refuted: (C72_few_stars_violated) C72 (sign); violated for few stars: with more than `1/\u03b3` stars, none of them at the centre, the half-mass relaxation time is positive; with fewer (two stars or less for the default `\u03b3 = 0.4`) a negative time is returned. (C72_rad_violated) C72 is violated for a given radius: `relaxation_time(rad)` always fails. (C72_projected_violated) C72 is violated in projection: the projected order of the previous frame is reused; for this cluster given from the galactic centre the radius used is 2, although half of its mass is seen within 1 of its centre. Proved part: (C72_projected_partial) C72 (projected). With `projected=True` the radius is the half-mass radius seen along z, if the projected order stored with the cluster is right in the working frame."
  },
  {
   "property": "C73",
   "status": "partial",
   "theorems": [
    "CT.C73_galaxy_violated"
   ],
   "note": "The property as stated is false of the code at this commit; that too is proved. Refuted: (C73_galaxy_violated) C73 is violated for clusters given from the galactic centre: the stars' positions relative to the cluster centre are stored as galactocentric ones, so that every star is displaced by the cluster's position (and centre)."
  },
  {
   "property": "C74",
   "status": "proved",
   "theorems": [
    "CT.C74_closest_star"
   ],
   "note": "(C74_closest_star) C74 (closest star). For two or more stars `closest_star` gives every star the distance to the nearest other star, in the length unit of the cluster, whatever its units and origin, and the index of a star at that distance, which is another star unless two stars are at the same place."
  },
  {
   "property": "C75",
   "status": "partial",
   "theorems": [
    "CT.C75_sky_violated",
    "CT.C75_coincident_violated"
   ],
   "note": "The property as stated is false of the code at this commit; that too is proved. Refuted: (C75_sky_violated) C75 is violated for sky coordinates: `closest_star` gives nothing, and fails when asked for the index. (C75_coincident_violated) C75 is violated for coincident stars: if the tree answers equally at equal points, one of two stars at the same place is called its own closest star, whenever no third star is there."
  },
  {
   "property": "C76",
   "status": "proved",
   "theorems": [
    "CT.C76_core_radius",
    "CT.C76_unique",
    "CT.C76_same_cluster",
    "CT.C76_range",
    "CT.C76_core_relaxation"
   ],
   "note": "(C76_core_radius) C76 (core radius). For a cluster given from its centre, or with a known centre, `rcore` is the core radius of Casertano and Hut around that centre, in the length unit of the cluster, whatever its units and origin, and the cluster is returned as it was. (C76_unique) C76 (one core radius). For stars in general position there is only one core radius. (C76_same_cluster) C76 (units and origins). Two descriptions of the same cluster, in any units and from any origin, have the same core radius. (C76_range) C76 (range). With positive masses and no two stars at one place the weights are positive, and the core radius lies between the smallest and the largest distance from the centre. (C76_core_relaxation) C76 (core relaxation time). `core_relaxation_time(coulomb=\u03b3)` is `0.39/ln(\u03b3N)\u00b7\u221a(rc\u00b3/(GM))\u00b7N\u00b7\u221a(rc\u00b7rh)/(rc+rh)` for the physical masses, the core radius and the half-mass radius, in the time unit of the cluster; the cluster is returned as it was."
  },
  {
   "property": "C77",
   "status": "partial",
   "theorems": [
    "CT.C77_centre_violated"
   ],
   "note": "The property as stated is false of the code at this commit; that too is proved. Refuted: (C77_centre_violated) C77 is violated without a known centre: for a cluster given from its position with the centre at zero, `rcore` does not leave the cluster as it was: the density centre is stored in it."
  },
  {
   "property": "C78",
   "status": "partial",
   "theorems": [
    "CT.C78_histogram",
    "CT.C78_equal_numbers",
    "CT.C78_equal_widths",
    "CT.C78_given_bins",
    "CT.C78_power_law",
    "CT.C78_units",
    "CT.C78_outside_violated",
    "CT.C78_few_bins_violated",
    "CT.C78_equal_values_violated"
   ],
   "note": "The property as stated is false of the code at this commit; that too is proved. Refuted: (C78_outside_violated) C78 (violated: values outside the caller's bins). With given contiguous bins every value is counted, also a value in none of the bins, although the numbers of the values in the bins add up to less. (C78_few_bins_violated) C78 (violated: few bins). With one or two bins `dx_function` never returns. (C78_equal_values_violated) C78 (violated: equal values). If all the values are equal, the histogram with equal numbers fails. Further theorems, see their statements: C78_histogram, C78_equal_numbers, C78_equal_widths, C78_given_bins, C78_power_law, C78_units."
  },
  {
   "property": "C79",
   "status": "proved",
   "theorems": [
    "CT.C79_mass_function",
    "CT.C79_equal_numbers",
    "CT.C79_equal_widths",
    "CT.C79_power_law",
    "CT.C79_too_few",
    "CT.C79_method",
    "CT.C79_units"
   ],
   "note": "(C79_mass_function) C79 (mass function). Whenever `mass_function` returns for a cluster with at least `nmass` selected stars, not all of one mass: the bins are contiguous and reach from the smallest to the largest selected mass, at most `nmass` of them; every bin reports the mean mass (or with `bintype='fix'` its middle), the number of the selected stars in it and their weighted number per unit mass; numbers and weights add up to those of all selected stars; the slope is that of the only least-squares line of `log10 dN/dm` against `log10 m`, the errors are its standard errors; the cluster is left as it was. (C79_equal_numbers) C79 (equal-number bins). For `nmass \u2265 3` and at least `2\u00b7nmass` selected stars of different, positive masses `mass_function` succeeds with exactly `nmass` bins, each holding the average number of stars up to rounding. (C79_equal_widths) C79 (equal-width bins). With `bintype='fix'`, `nmass \u2265 3`, positive masses and at least one selected star in each of the `nmass` equal parts of the range of the selected masses, `mass_function` succeeds and these parts are the bins. (C79_power_law) C79 (power law). Where the densities of all bins follow an exact power law `A\u00b7m^\u03b1`, the slope is `\u03b1`, the intercept `log10 A` and both errors are zero. (C79_too_few) C79 (too few stars). With fewer than `nmass` selected stars the answer is `nmass` zeros and `-1000`, and the cluster is left as it was. (C79_method) C79 (the method). `cluster.mass_function(\u2026)` without `mcorr` gives the slope of the function. (C79_units) C79 (units). Two descriptions of the same physical cluster in different units (and frames), with filters that select the same stars: the mass function exists for one if and only if for the other, and numbers per bin, slope, error of the slope and bin errors are the same; the masses agree in solar masses."
  },
  {
   "property": "C80",
   "status": "partial",
   "theorems": [
    "CT.C80_empty_bin_violated",
    "CT.C80_few_bins_violated",
    "CT.C80_method_mcorr_violated",
    "CT.C80_equal_masses_violated"
   ],
   "note": "The property as stated is false of the code at this commit; that too is proved. Refuted: (C80_empty_bin_violated) C80 (violated: empty bins). With `bintype='fix'`, a single bin without a selected star makes the whole mass function fail: the logarithm of its zero density is not finite. (C80_few_bins_violated) C80 (violated: few bins). With one or two bins there is never a mass function. (C80_method_mcorr_violated) C80 (violated: completeness correction). The method fails whenever `mcorr` is given: it unpacks seven of eight values. (C80_equal_masses_violated) C80 (violated: equal masses). If all selected stars have one mass, equal-number bins do not exist and `mass_function` raises `ValueError`, however many stars there are."
  },
  {
   "property": "C81",
   "status": "proved",
   "theorems": [
    "CT.C81_virial",
    "CT.C81_same_cluster"
   ],
   "note": "(C81_virial) C81, where the mean density decreases outwards: the cluster comes back as given; the returned length is, when the star whose mean density is nearest to the wanted density is neither the innermost nor the outermost, the radius at which the mean density passes the wanted one, interpolated between the two stars enclosing it; otherwise it is that star's radius. (C81_same_cluster) C81, one description of the cluster or another: the same physical length."
  },
  {
   "property": "C82",
   "status": "partial",
   "theorems": [
    "CT.C82_edge_violated",
    "CT.C82_rising_violated"
   ],
   "note": "The property as stated is false of the code at this commit; that too is proved. Refuted: (C82_edge_violated) C82 is violated at the edges: when the wanted density lies strictly between the mean densities within the two innermost stars, but nearer to that of the innermost, the innermost star's radius is returned instead of the crossing between them. (C82_rising_violated) C82 is violated where the mean density rises outwards: at a star whose mean density is below the wanted one and nearest to it, with a lower one at the next star inwards, the line through the two is extended outwards and a radius beyond the star is returned, although from that star outwards the mean density is always below the wanted one."
  },
  {
   "property": "C83",
   "status": "proved",
   "theorems": [
    "CT.C83_limiting",
    "CT.C83_tie",
    "CT.C83_same_cluster"
   ],
   "note": "(C83_limiting) C83. `rlimiting` gives the radius at which the density profile of the cluster about its position or centre falls to the density of the galaxy there (the radius of the last bin if even that is denser, zero if already the first is not as dense), in the length unit of the cluster, and returns the cluster as it was. The profile is that of the physical cluster, whatever its units and origin. The one exception is a last bin exactly at the background when no bin is below it, see `C83_tie`. (C83_tie) C83 (a tie). When the last bin is exactly as dense as the background and no bin is less dense, `rlimiting` fails with an `IndexError`. (C83_same_cluster) C83 (units and origins). Two descriptions of the same cluster, both taken about its position or both about its centre, have the same limiting radius."
  },
  {
   "property": "C84",
   "status": "proved",
   "theorems": [
    "CT.C84_core_radius",
    "CT.C84_same_cluster"
   ],
   "note": "(C84_core_radius) C84. Where the density profile of the cluster about its centre stays below the core density (a third of the central density, in projection half of it) once it is below, and somewhere is, `rcore(method='isothermal')` gives the radius at which it falls to that density, in the length unit of the cluster, and returns the cluster as it was; for a cluster given from its centre or with a known centre. (C84_same_cluster) C84 (units and origins). Two descriptions of the same cluster, in any units and from any origin, have the same core radius, whatever the shape of the profile."
  },
  {
   "property": "C85",
   "status": "partial",
   "theorems": [
    "CT.C85_no_fall_violated",
    "CT.C85_whole_violated",
    "CT.C85_rising_violated"
   ],
   "note": "The property as stated is false of the code at this commit; that too is proved. Refuted: (C85_no_fall_violated) C85 violated (no bin below). If no bin is below the core density, the core radius fails with an `IndexError`. (C85_whole_violated) C85 violated (the whole mass). With `mfrac=1` there is a single bin, and the core radius always fails. (C85_rising_violated) C85 violated (a profile that rises again). If a bin is below the core density and one further out is not, the returned radius lies beyond the first bin below it: it is not the radius at which the profile falls to the core density."
  },
  {
   "property": "C86",
   "status": "proved",
   "theorems": [
    "CT.C86_cluster_moves",
    "CT.C86_function"
   ],
   "note": "(C86_cluster_moves) C86. The method `interpolate_orbit` moves the cluster to where its galactocentric position is after the given time (12 Gyr if none is given) and returns that place, in the cluster's units; the stars move with it, everything else stays. Velocities are asked for in the units `RightVelocities`, see `C87_velocity_violated`. (C86_function) C86 (the function). `interpolate_orbit` itself returns the place of the cluster (or of its centre, if asked for) after that time and leaves the cluster as it was."
  },
  {
   "property": "C87",
   "status": "partial",
   "theorems": [
    "CT.C87_from_centre_violated",
    "CT.C87_no_time_violated",
    "CT.C87_velocity_violated",
    "CT.C87_amuse_violated"
   ],
   "note": "The property as stated is false of the code at this commit; that too is proved. Refuted: (C87_from_centre_violated) C87 violated (`from_centre`). With `from_centre=True` the orbit is that of the centre, but its end is stored as the position of the cluster: the centre, which keeps its offset from the cluster, ends that offset away from its orbit. (C87_no_time_violated) C87 violated (no time). In particular following the centre's orbit for no time at all moves the cluster by the centre's offset. (C87_velocity_violated) C87 violated (velocities). In pc/Myr and kpc/Gyr the stored velocity of the cluster is too small by the factor 1.02\u2026 . (C87_amuse_violated) C87 violated (AMUSE). In AMUSE units the default time makes the call fail, after the cluster is already converted to pc."
  },
  {
   "property": "C88",
   "status": "proved",
   "theorems": [
    "CT.C88_function",
    "CT.C88_stars_move"
   ],
   "note": "(C88_function) C88 (the function). `interpolate_orbits` returns, for every star, its row followed for the given time (12 Gyr if none is given) in the potential, in the frame and units of the cluster; the cluster is left as it was. (C88_stars_move) C88. With the origin at the galaxy, the method `interpolate_orbits` moves every star and the cluster to where they are after the given time; time, masses and the centre (from the cluster's position) stay, and the derived quantities are those of the moved stars."
  },
  {
   "property": "C89",
   "status": "partial",
   "theorems": [
    "CT.C89_stale_radii_violated",
    "CT.C89_kept_order_violated",
    "CT.C89_order_violated",
    "CT.C89_amuse_violated"
   ],
   "note": "The property as stated is false of the code at this commit; that too is proved. Refuted: (C89_stale_radii_violated) C89 violated (derived quantities). With the origin at the cluster or its centre, `interpolate_orbits` assigns the new rows but leaves the radii, speeds, \u2026 of the old ones: they are right only if no star changes its distance. (C89_kept_order_violated) C89 violated (stored order). With the origin at the galaxy the stored radial order of the old positions is kept. (C89_order_violated) C89 violated, concretely. Without forces the inner of two stars overtakes the other; the stored order, right before the call, is wrong after it. (C89_amuse_violated) C89 violated (AMUSE). In AMUSE units the default time makes the call fail."
  },
  {
   "property": "C90",
   "status": "partial",
   "theorems": [
    "CT.C90_functions_violated",
    "CT.C90_methods_violated"
   ],
   "note": "The property as stated is false of the code at this commit; that too is proved. Refuted: (C90_functions_violated) C90 violated (functions). The legacy function `orbit_interpolate` is refused its keyword `plot`, and `orbits_interpolate` looks up a name that does not exist, whatever the arguments; were it defined, the call would be refused. (C90_methods_violated) C90 violated (methods). The legacy methods hand the cluster over twice, so the potential is given twice: a `TypeError` for every cluster and all arguments."
  },
  {
   "property": "C91",
   "status": "proved",
   "theorems": [
    "CT.C91_eta_function",
    "CT.C91_equal_numbers",
    "CT.C91_power_law",
    "CT.C91_too_few",
    "CT.C91_units"
   ],
   "note": "(C91_eta_function) C91. Whatever `eta_function` returns for at least `2\u00b7nmass` selected stars of different masses: bins with equal numbers of stars, the mean mass and the dispersion of the speeds in each, the least-squares line through their logarithms. The cluster is left as it was. (C91_equal_numbers) C91 (it exists). For `nmass \u2265 3` and at least `2\u00b7nmass` selected stars of different positive masses and different speeds `eta_function` succeeds: `nmass` bins, each holding the average number of stars up to rounding. (C91_power_law) C91 (power law). If the dispersions follow `A\u00b7m^\u03b7`, the slope is `\u03b7` and its error zero. (C91_too_few) C91 (too few stars). With fewer than `2\u00b7nmass` selected stars the answer is `nmass` zeros twice and `-1000` four times, and the cluster is left as it was. (C91_units) C91 (units). The slope and its error do not depend on the units in which the cluster is given, mean masses and dispersions only as masses and velocities do."
  },
  {
   "property": "C92",
   "status": "partial",
   "theorems": [
    "CT.C92_equal_masses_violated",
    "CT.C92_few_bins_violated",
    "CT.C92_repeated_masses_violated",
    "CT.C92_same_speed_violated"
   ],
   "note": "The property as stated is false of the code at this commit; that too is proved. Refuted: (C92_equal_masses_violated) C92 (violated: equal masses). Stars of one mass: `ValueError`, however many there are. (C92_few_bins_violated) C92 (violated: few bins). With one or two bins `eta_function` never returns. (C92_repeated_masses_violated) C92 (violated: few masses). Fewer different masses than bins: the bins cannot be told apart and `eta_function` fails with `TypeError`, however many stars there are (a mass function of the same stars exists). (C92_same_speed_violated) C92 (violated: dispersion of speeds). The dispersion is that of the absolute values of the velocities: if all selected stars have the same speed, in whatever directions, there is no relation (the logarithms are not finite)."
  },
  {
   "property": "C93",
   "status": "proved",
   "theorems": [
    "CT.C93_zero",
    "CT.C93_equipartition",
    "CT.C93_derivative",
    "CT.C93_decreasing",
    "CT.C93_units"
   ],
   "note": "(C93_zero) C93 (value at zero). `\u03c3(0) = \u03c30`. (C93_equipartition) C93 (equipartition). Above the equipartition mass stars have equal kinetic energies: `m\u00b7\u03c3(m)\u00b2` does not depend on the mass. (C93_derivative) C93 (smoothness). `\u03c3` is differentiable at every mass, also at the equipartition mass, with `\u03c3'(m) = -\u03c3(m) / (2\u00b7max(m, meq))`. (C93_decreasing) C93 (positive and decreasing). For positive `\u03c30` the dispersion is positive and heavier stars are always slower. (C93_units) C93 (units). In other units of mass and velocity the relation is the same."
  },
  {
   "property": "C94",
   "status": "proved",
   "theorems": [
    "CT.C94_meq_function",
    "CT.C94_ckin"
   ],
   "note": "(C94_meq_function) C94 (equipartition mass). Whatever `meq_function` returns for at least `2\u00b7nmass` selected stars of different masses: mean masses and dispersions of equal-number bins, and the best fit of the relation of C93 found by scipy with an equipartition mass between the smallest and the largest mass of the cluster. The cluster is left as it was. (C94_ckin) C94 (kinematic concentration). For a cluster in its own frame, no mask and `projected=False`, whatever `ckin` returns is the equipartition mass of the selected stars within the half-mass radius divided by that of the selected stars between the radii of 40% and 60% of the mass, provided both regions hold at least `2\u00b7nmass` selected stars of different masses. The cluster is left as it was."
  },
  {
   "property": "C95",
   "status": "partial",
   "theorems": [
    "CT.C95_too_few_violated",
    "CT.C95_galaxy_violated",
    "CT.C95_radial_limits_violated"
   ],
   "note": "The property as stated is false of the code at this commit; that too is proved. Refuted: (C95_too_few_violated) C95 (violated: too few stars). If both regions hold fewer than `2\u00b7nmass` selected stars, `ckin` answers `1`, a plausible value, and not the `-1000` of `eta_function`. (C95_galaxy_violated) C95 (violated: galactocentric frame). In the frame of the galaxy the Lagrange radii are distances from the centre of the cluster but stars are selected by their distances from the centre of the galaxy: a cluster further from it than its own size always has `ckin = 1`, whatever its stars do. (C95_radial_limits_violated) C95 (violated: radial limits). `ckin` takes `rmin` and `rmax` and does not look at them."
  },
  {
   "property": "C96",
   "status": "proved",
   "theorems": [
    "CT.C96_alpha_prof",
    "CT.C96_defined"
   ],
   "note": "(C96_alpha_prof) C96. Whatever `alpha_prof` returns, for bins that cover the chosen radii: the bins are those of all profiles, the radii are the mean radii of their stars; entry `k` is the slope (with its error) of the mass function of the pre- and main-sequence stars in radial bin `k` if there are at least `nmass` of them, not all of one mass, and the slope is above `-100`. With up to three bins there is no gradient (`-100`); with more, if every bin holds a star and none is at the centre, it is the least-squares line of the entries against `ln(r/rm)`; `rm`, and what normalised radii are divided by, is the half-mass radius about the centre (in space, for a current stored order). The cluster is left as it was. (C96_defined) C96 (success). For stars of different, positive masses, `nmass \u2265 3`, and bins that each hold either fewer than `nmass` or at least `2\u00b7nmass` pre- and main-sequence stars, `alpha_prof` (with mass bins of equal numbers) always returns."
  },
  {
   "property": "C97",
   "status": "partial",
   "theorems": [
    "CT.C97_too_few_violated",
    "CT.C97_no_gradient_violated",
    "CT.C97_types_violated",
    "CT.C97_one_mass_violated"
   ],
   "note": "The property as stated is false of the code at this commit; that too is proved. Refuted: (C97_too_few_violated) C97 (violated: too few stars). A radial bin with fewer than `nmass` pre- and main-sequence stars has slope `0` with error `0`, a flat mass function, instead of a sign that there is none; it is a point of the fit like all others. (C97_no_gradient_violated) C97 (violated: no mass function at all). If every radial bin holds fewer than `nmass` pre- and main-sequence stars (bins not empty, no star at the centre, more than three bins), the gradient is `0` with error `0`, not `-100`. (C97_types_violated) C97 (violated: stellar types). The mass functions are made with `kwmax=1` whatever the caller says: a profile of evolved stars (`kwmin \u2265 2`) has slope `0` in every bin, however many there are. (C97_one_mass_violated) C97 (violated: stars of one mass). One radial bin with at least `nmass` pre- and main-sequence stars of one mass makes the whole profile fail (for equal-number mass bins): whatever a call returns, no bin is of this kind."
  },
  {
   "property": "C98",
   "status": "proved",
   "theorems": [
    "CT.C98_eta_prof",
    "CT.C98_meq_prof",
    "CT.C98_defined"
   ],
   "note": "(C98_eta_prof) C98. Whatever `eta_prof` (or, with a fit, `meq_prof`) returns in space, without a mask and limits on energy and population: the bins are those of all profiles; entry `k` is the slope (the equipartition mass) `eta_function` finds for the chosen stars between the edges of bin `k` if there are at least `2\u00b7nmass` of them, not all of one mass, and it is above `-100`. With up to three bins there is no gradient (`-100`), with more it is the least-squares line of the entries against `ln(r/rm)`; `rm`, and what normalised radii are divided by, is the half-mass radius about the centre (for a current stored order). The cluster is left as it was. (C98_meq_prof) C98 (equipartition mass). The same of `meq_prof`: entry `k` is the equipartition mass fitted by scipy to the dispersions of the chosen stars between the edges of bin `k`. (C98_defined) C98 (success). For stars of different positive masses and different speeds and `nmass \u2265 3`, `eta_prof` in space without a mask always returns: with its own equal-number bins if no star is at the centre, with given bins if there are up to three."
  },
  {
   "property": "C99",
   "status": "partial",
   "theorems": [
    "CT.C99_selection_violated",
    "CT.C99_too_few_violated",
    "CT.C99_one_mass_violated",
    "CT.C99_counted_twice_violated",
    "CT.C99_given_bins_violated"
   ],
   "note": "The property as stated is false of the code at this commit; that too is proved. Refuted: (C99_selection_violated) C99 (violated: selection). Whatever `eta_prof` or `meq_prof` returns: a mask, and limits on energy and population, only decide which stars the bins are made of. Entry `k` is made of all stars between the edges of bin `k` with a mass, speed and type within the limits, also those outside the mask, of another population or energy. For a projected profile the edges are distances in space, the stars are taken by projected distance. (C99_too_few_violated) C99 (violated: too few stars). A bin with fewer than `2\u00b7nmass` stars has the entry `0`, instead of a sign that nothing was fitted. (C99_one_mass_violated) C99 (violated: stars of one mass). One bin with at least `2\u00b7nmass` stars between its edges, all of one mass, makes the whole profile fail. (C99_counted_twice_violated) C99 (violated: stars counted twice). The edge between two neighbouring equal-number bins is the radius of a chosen star, and the entries of both bins are made with this star. (C99_given_bins_violated) C99 (violated: given bins). With bins given by the caller, a mask and limits on radius, energy and population change nothing: whatever the profile is for one mask and one set of these limits, it is the same for every other."
  },
  {
   "property": "C100",
   "status": "proved",
   "theorems": [
    "CT.C100_chain"
   ],
   "note": "(C100_chain) C100. A file with the snapshots `s 0, \u2026, s n`, each under a header of at most `skip` lines, is read by `load_cluster` and `k` calls of `advance_cluster` as snapshot `k`: its masses, positions, velocities and time, the stars numbered from 1, with the label `nsnap + k`, the columns of `give` if `give` is repeated, for every number of snapshots and every number of stars in each of them; and the call after the last one returns a cluster without stars. The units may be any but `radec`, the origin `galaxy` or `cluster`; there is no orbit file."
  },
  {
   "property": "C101",
   "status": "partial",
   "theorems": [
    "CT.C101_orbit_at_load_violated",
    "CT.C101_orbit_lags_violated",
    "CT.C101_nsnap_violated",
    "CT.C101_give_violated",
    "CT.C101_twice_violated"
   ],
   "note": "The property as stated is false of the code at this commit; that too is proved. Refuted: (C101_orbit_at_load_violated) C101, violated. The orbit file given to `load_cluster` is not read: whatever it says, the cluster is the one loaded without it. (C101_orbit_lags_violated) C101, violated. After `k + 1` advances the cluster has the place of line `k` of the orbit file, the line that belongs to the snapshot before: for every file, every orbit file with a line for each snapshot and every `k`. (C101_nsnap_violated) C101, violated. `load_cluster(\u2026, nsnap=n)` reads the first snapshot of the file, whatever `n`, and labels it `n`. (C101_give_violated) C101, violated. A file read with `give='mxve'`: after loading the cluster has its softening lengths, after advancing it has none. (C101_twice_violated) C101, violated. The clusters of a file share one reading position. Advancing the first cluster `r0` a second time (its file is then where the first advance `r1` left it) gives the third snapshot, with the label of the second."
  },
  {
   "property": "C102",
   "status": "proved",
   "theorems": [
    "CT.C102_regular"
   ],
   "note": "(C102_regular) C102. A file that begins with regular snapshots \u2013 headers of `skip` lines, `n \u2265 2` stars in each, equal time steps \u2013 is read by `load_cluster(ctype='new_gyrfalcon')` and `k` calls of `advance_cluster` as snapshot `k`, with its time and the label `k`, for every number of stars and of snapshots."
  },
  {
   "property": "C103",
   "status": "partial",
   "theorems": [
    "CT.C103_times_violated",
    "CT.C103_past_end_violated",
    "CT.C103_numbers_violated",
    "CT.C103_nsnap_violated",
    "CT.C103_one_star_violated",
    "CT.C103_more_stars_violated"
   ],
   "note": "The property as stated is false of the code at this commit; that too is proved. Refuted: (C103_times_violated) C103, violated. The time after `k` advances is extrapolated from the first two snapshots, whatever time the file gives. (C103_past_end_violated) C103, violated. After the last of at least two snapshots, `advance_cluster` raises `IndexError` where the other reader returns a cluster without stars. (C103_numbers_violated) C103, violated. The same star has another number in the two readers: the one numbers from 1, the other from 0. (C103_nsnap_violated) C103, violated. Loading snapshot `n` gives the first one, labelled `n`. (C103_one_star_violated) C103, violated. A snapshot of one star cannot be loaded. (C103_more_stars_violated) C103, violated. If the second snapshot has more stars than the first, only as many stars as the first had are read from it."
  },
  {
   "property": "C104",
   "status": "proved",
   "theorems": [
    "CT.C104_cut_header"
   ],
   "note": "(C104_cut_header) C104. A simulation stopped while it was writing a header: for every cut of the header (and for the whole header, if it is shorter than `skiprows`), the snapshots before it are read, and the next advance returns a cluster without stars, as at the end of a file."
  },
  {
   "property": "C105",
   "status": "partial",
   "theorems": [
    "CT.C105_cut_rows_violated",
    "CT.C105_cut_silently_violated"
   ],
   "note": "The property as stated is false of the code at this commit; that too is proved. Refuted: (C105_cut_rows_violated) C105, violated. A simulation stopped while it was writing the stars of a snapshot: for every cut between the rows or in a row (the words `d.take i`), the snapshots before it are read, but the next advance raises `IndexError` instead of returning a cluster without stars. (C105_cut_silently_violated) C105, violated. The other reader takes the first snapshot cut after `j \u2265 2` of its `n` stars for a cluster of `j` stars."
  },
  {
   "property": "C106",
   "status": "proved",
   "theorems": [
    "CT.C106_gyrout",
    "CT.C106_gyrout_eps"
   ],
   "note": "(C106_gyrout) C106. `gyrout` without softening lengths, from all linear units and origins: one row for each star, in order, with its mass in units of 222288.45\u2026 Msun and its galactocentric position in kpc (velocities: see C107); the cluster is as before. (C106_gyrout_eps) C106. With a softening length (a float, for all stars) or an array of them in `epsunits` (by default the units of the cluster), the rows have it in kpc in addition."
  },
  {
   "property": "C107",
   "status": "partial",
   "theorems": [
    "CT.C107_velocities_violated",
    "CT.C107_eps_changed_violated",
    "CT.C107_error_violated"
   ],
   "note": "The property as stated is false of the code at this commit; that too is proved. Refuted: (C107_velocities_violated) C107, violated. One km/s is `K` kpc/Gyr, and galpy's `velocity_in_kpcGyr(vo, ro)` is `vo K`: the velocities written are those in kpc/Gyr multiplied by `solar_vo/220` (1.087\u2026), so no moving star has its velocity in the file. (C107_eps_changed_violated) C107, violated. Softening lengths given as an array in pc are divided by 1000 in the caller's array: the same call again writes them 1000 times too small. (C107_error_violated) C107, violated. If the number of softening lengths is wrong, or an integer is given in kpc, `ValueError` is raised and the cluster stays where the computation took it: galactocentric and in kpc."
  },
  {
   "property": "C108",
   "status": "proved",
   "theorems": [
    "CT.C108_fortout",
    "CT.C108_fortout_reset",
    "CT.C108_sseout"
   ],
   "note": "(C108_fortout) C108. `fortout` without `reset_nbody`, from all linear units and origins: `fort.10` has one row for each star, in order, with its mass, position and velocity with respect to the centre in N-body units; with `sse=True`, `fort.12` has initial mass, type, mass in Msun, epoch and spin; nothing else is written; the cluster is as before. (C108_fortout_reset) C108. `fortout` with `reset_nbody=True`, from all linear units but `nbody`: in addition the numbers written are in standard units: the masses add up to 1 (if the mass scale is reset) and the virial radius is 1 (if the radius scale is); the world the cluster describes is unchanged. (C108_sseout) C108. `sseout`: from all linear units and origins, one row with initial mass, type, mass in Msun, epoch and spin for each star; the cluster is as before."
  },
  {
   "property": "C109",
   "status": "partial",
   "theorems": [
    "CT.C109_reset_in_nbody_violated",
    "CT.C109_no_columns_violated",
    "CT.C109_sseout_violated",
    "CT.C109_name_violated"
   ],
   "note": "The property as stated is false of the code at this commit; that too is proved. Refuted: (C109_reset_in_nbody_violated) C109, violated. `fortout` with `reset_nbody=True` on a cluster in N-body units: `fort.10` has the unscaled numbers (their masses do not add up to 1), and afterwards the cluster, with the same numbers and other scales, describes other masses. (C109_no_columns_violated) C109, violated. Without stellar evolution columns, `fortout(sse=True)` raises `ValueError` after `fort.10` has been written, and the cluster stays in pc and km/s with respect to its centre. (C109_sseout_violated) C109, violated. The same for `sseout`: the cluster stays in pc and km/s. (C109_name_violated) C109, violated. The name given to `fortout` is not the name of the file when `wdir` is not empty: a file of that name stays as it was."
  },
  {
   "property": "C110",
   "status": "proved",
   "theorems": [
    "CT.C110_load_orbit"
   ],
   "note": "(C110_load_orbit) C110: `load_cluster(\u2026, orbit=orbit)`, in pc and km/s and in N-body units, puts the cluster on the orbit at the physical time of the snapshot and changes no star: same masses, same positions and velocities in the same order, same labels and time, and the radii and totals describe them."
  },
  {
   "property": "C111",
   "status": "partial",
   "theorems": [
    "CT.C111_load_kpckms_violated",
    "CT.C111_load_galpy_violated",
    "CT.C111_load_ignored_violated",
    "CT.C111_advance_length_violated",
    "CT.C111_advance_time_violated",
    "CT.C111_advance_units_violated"
   ],
   "note": "The property as stated is false of the code at this commit; that too is proved. Refuted: (C111_load_kpckms_violated) C111, violated: in kpc and km/s `load_cluster(\u2026, orbit=orbit)` raises `UnboundLocalError`, whatever the cluster and the orbit. (C111_load_galpy_violated) C111, violated: in galpy units the numbers 8 and 220 are used for the scales of galpy, so with any other `ro` the cluster is not on the orbit, even on one that stands still. (C111_load_ignored_violated) C111, violated: in pc and pc/Myr, in kpc and kpc/Gyr, and in the two remaining unit systems, the orbit is ignored: the cluster stays where the reader put it. (C111_advance_length_violated) C111, violated: `advance_cluster(\u2026, orbit=orbit)` in pc and km/s, N-body or galpy units stores kiloparsecs as if they were the cluster's own unit: the cluster is not on the orbit, even on one that stands still, unless the unit of length happens to be the kiloparsec. (C111_advance_time_violated) C111, violated: in kpc and km/s, where times are in Gyr, `advance_cluster(\u2026, orbit=orbit)` uses the position of the orbit a thousand times too early: on any orbit that passes through different places at the two times the cluster is misplaced. (C111_advance_units_violated) C111, violated: in the other unit systems `advance_cluster(\u2026, orbit=orbit)` raises."
  },
  {
   "property": "C112",
   "status": "proved",
   "theorems": [
    "CT.C112_histories"
   ],
   "note": "(C112_histories) C112. Snapshots `rs 0, rs 1, \u2026` of an NBODY6++ run are in files `conf.3_n` with `n = n0, n0+d, n0+2d, \u2026`: loading snapshot `n0` and advancing `k` times with the same `dtout = d` (and the same `snapdir`, if any) gives snapshot `k`: binaries as single stars with the mass and centre of mass of their components, followed by the other stars in the order of the file, with ids, N-body scales, centre, kinetic energies, densities, and the position given by the line `n0/d + k` of the orbit file, if there is one. `otime` only replaces the time."
  },
  {
   "property": "C113",
   "status": "partial",
   "theorems": [
    "CT.C113_binaries_violated",
    "CT.C113_potentials_violated",
    "CT.C113_snapdir_violated",
    "CT.C113_header_violated"
   ],
   "note": "The property as stated is false of the code at this commit; that too is proved. Refuted: (C113_binaries_violated) C113 (violated: number of binaries). The cluster counts every binary twice. (C113_potentials_violated) C113 (violated: potentials). Potentials are read as integers: a star that has a negative potential not below `-2^28` in the file, gets one below `-8.3\u00b710^8`. (C113_snapdir_violated) C113 (violated: `snapdir`). The directory of the snapshots is forgotten: a cluster loaded from files in a directory `snapdir`, that has the next snapshot too, is advanced (without repeating the keyword) to a cluster without stars. (C113_header_violated) C113 (violated: damaged files). Sizes that differ at the ends of the header block raise `TypeError` (the reader returns `-1`, the caller unpacks thirteen values) rather than an error about the file."
  },
  {
   "property": "C114",
   "status": "proved",
   "theorems": [
    "CT.C114_preference",
    "CT.C114_search",
    "CT.C114_mapper",
    "CT.C114_sky",
    "CT.C114_missing",
    "CT.C114_missing_key"
   ],
   "note": "(C114_preference) C114 (preference). Among several candidates the first name of the list that occurs decides, and among columns whose names agree up to case the first one. (C114_search) C114 (search). A table whose column names, up to case, determine the Cartesian columns gives one star per row, in order: positions and velocities of the row, mass (1 if there is no such column) and id (the row number if there is none), in the units and the frame given, placed where the orbit file says. (C114_mapper) C114 (dictionary). The same with the columns named by `column_mapper`, whatever they are called. (C114_sky) C114 (sky). In `radec` units with origin `sky` the columns are the coordinates on the sky; the stars have these, in order, as coordinates; any masses. (C114_missing) C114 (missing columns). A table in which one of the six coordinates is not found raises `ValueError`; nothing is guessed. (C114_missing_key) C114 (missing columns, dictionary). A dictionary that does not name one of the six coordinates, or names a column the table does not have, raises `KeyError`."
  },
  {
   "property": "C115",
   "status": "partial",
   "theorems": [
    "CT.C115_mapper_violated",
    "CT.C115_tphys_violated",
    "CT.C115_centre_violated"
   ],
   "note": "The property as stated is false of the code at this commit; that too is proved. Refuted: (C115_mapper_violated) C115 (violated: the caller's dictionary). Loading empties the dictionary passed as `column_mapper`: the second call with the same arguments raises `KeyError`. (C115_tphys_violated) C115 (violated: age). A cluster read from a table cannot be given its age: with the keyword `tphys` the call raises `TypeError` for every table. (C115_centre_violated) C115 (violated: centre). Unlike for other readers, the centre of a cluster given in its own frame is not searched for: it is left at the origin whatever the stars."
  },
  {
   "property": "C116",
   "status": "proved",
   "theorems": [
    "CT.C116_orbits"
   ],
   "note": "(C116_orbits) C116. In `kpckms`, with the `ro` and `vo` of the orbits, a cluster of galpy orbits has one star per orbit, in order, which is where the orbit is; its mass is the one given (1 if none), its id counts from 1; units and origin are those asked for."
  },
  {
   "property": "C117",
   "status": "partial",
   "theorems": [
    "CT.C117_pckms_violated",
    "CT.C117_scales_violated",
    "CT.C117_galpy_violated",
    "CT.C117_ofile_violated",
    "CT.C117_tphys_violated"
   ],
   "note": "The property as stated is false of the code at this commit; that too is proved. Refuted: (C117_pckms_violated) C117 (violated: pc). In `pckms` the numbers are still kpc: every star is a thousand times too close to the origin. (C117_scales_violated) C117 (violated: scales of the orbits). The scales the orbits were made with are ignored: with any other `ro` (the default is 8.275) an orbit with `x` different from zero is put in the wrong place. (C117_galpy_violated) C117 (violated: galpy units). In `galpy` units no choice of `ro` and `vo` works: if an orbit with `x` and `vx` different from zero is where and as fast as it should be, then the masses are divided by galpy's unit of mass for `ro = vo = 1`, so a given mass is right neither as a mass in solar masses nor as a mass in galpy units. (C117_ofile_violated) C117 (violated: orbit file). With an orbit file the call raises `NameError`, in every frame of the cluster. (C117_tphys_violated) C117 (violated: age). With the keyword `tphys` the call raises `TypeError`."
  },
  {
   "property": "C118",
   "status": "proved",
   "theorems": [
    "CT.C118_w0",
    "CT.C118_c",
    "CT.C118_mono",
    "CT.C118_entries"
   ],
   "note": "(C118_w0) C118 (central potential to concentration and back). For every `W0` in the table's range, 0.3 to 19.5, `w0_to_c` gives the logarithm of the broken line through the tables, and `c_to_w0` of it is `W0` again. (C118_c) C118 (concentration to central potential and back). For every `c` between the logarithms of the first and the last tabulated concentration. (C118_mono) C118 (order). More concentrated clusters have deeper potentials. (C118_entries) C118 (entries). At the entries of the table the values are those of the table."
  },
  {
   "property": "C119",
   "status": "partial",
   "theorems": [
    "CT.C119_below_violated",
    "CT.C119_above_violated",
    "CT.C119_shallow_violated"
   ],
   "note": "The property as stated is false of the code at this commit; that too is proved. Refuted: (C119_below_violated) C119 (violated: below). Every concentration below the tabulated ones is accepted, and all of them get practically the same central potential, between 0.299 and 0.3. (C119_above_violated) C119 (violated: above). Every concentration above the tabulated ones, and every central potential above 19.5, raises `IndexError`. (C119_shallow_violated) C119 (violated: shallow potentials). A central potential of 0.29 or less, for which King models exist, gives no number."
  },
  {
   "property": "C120",
   "status": "proved",
   "theorems": [
    "CT.C120_deBoer",
    "CT.C120_harris",
    "CT.C120_unknown"
   ],
   "note": "(C120_deBoer) C120 (de Boer). A cluster in de Boer's catalogue is sampled, by default and on request, from the parameters of its row; the number of stars is the mass over the mean mass. (C120_harris) C120 (Harris). On request a cluster in Harris's catalogue, under either of its names, is a King model (`g = 1`) whose central potential is the tabulated one for its concentration `rl/rc`, with the mass and limiting radius of its row; the number of stars is the one asked for or the mass over the mean mass. (C120_unknown) C120 (unknown). On request of Harris's catalogue an unknown name gives the empty cluster."
  },
  {
   "property": "C121",
   "status": "partial",
   "theorems": [
    "CT.C121_fallback_violated",
    "CT.C121_unknown_violated",
    "CT.C121_case_violated",
    "CT.C121_number_violated"
   ],
   "note": "The property as stated is false of the code at this commit; that too is proved. Refuted: (C121_fallback_violated) C121 (violated: default). The documentation says that by default Harris's catalogue is used for clusters de Boer's does not have. It never is: a cluster that only Harris's catalogue has raises `IndexError`. (C121_unknown_violated) C121 (violated: unknown names). By default a name in neither catalogue raises `UnboundLocalError`; no message, no empty cluster. (C121_case_violated) C121 (violated: lower case). A row of Harris's catalogue whose names are no upper-case strings (`Ko2`; the alias `47Tuc`) cannot be reached: whatever name is asked for, and from whatever source, the result is as if the row were not there. (C121_number_violated) C121 (violated: number of stars). For clusters of de Boer's catalogue the number of stars asked for is ignored."
  },
  {
   "property": "C122",
   "status": "proved",
   "theorems": [
    "CT.C122_named",
    "CT.C122_model"
   ],
   "note": "(C122_named) C122 (catalogue clusters). `load_cluster('limepy', gcname=\u2026, units=\u2026, origin=\u2026)` describes the cluster of the catalogue, with its orbital position, in the units and the frame asked for: time, masses, galactocentric positions and velocities of all stars are those of the cluster made from the catalogue in pc and km/s; radii and totals are up to date. (C122_model) C122 (models on an orbit). A limepy model in pc and km/s, in the frame of the cluster, is put on the orbit given at its own time; its stars are the sampled ones."
  },
  {
   "property": "C123",
   "status": "partial",
   "theorems": [
    "CT.C123_galaxy_violated",
    "CT.C123_units_violated",
    "CT.C123_ofile_violated"
   ],
   "note": "The property as stated is false of the code at this commit; that too is proved. Refuted: (C123_galaxy_violated) C123 (violated: galactocentric models). A limepy model asked for in the frame of the galaxy with an orbit is not put on the orbit: the orbital position is recorded, the stars stay where they were sampled, around the galactic centre. (C123_units_violated) C123 (violated: units of models). The units asked for are only written on the model: the numbers are the same, in pc, km/s and solar masses or whatever limepy uses, for all units. (C123_ofile_violated) C123 (violated: orbit file). With an orbit file (and no orbit) the call raises `TypeError`, for models and for clusters of the catalogues."
  },
  {
   "property": "C124",
   "status": "proved",
   "theorems": [
    "CT.C124_call",
    "CT.C124_session",
    "CT.C124_same_conversions",
    "CT.C124_ask_again"
   ],
   "note": "(C124_call) C124 (one call). Whatever the call, its arguments, and the units and origin the cluster is in: a call that does not raise gives the cluster back with the same stars, masses, centre, position, time, units and origin, with radii, totals and stored orders that belong to it. (C124_session) C124 (sessions). After any session of conversions and analysis calls that does not raise, the cluster describes the world it described before, and is exactly the cluster the conversions alone would have left: the analysis calls have no effect on its data, units and origin. (C124_same_conversions) C124 (order of questions). Two sessions with the same conversions leave the same cluster, whatever was asked in between. (C124_ask_again) C124 (asking again). The half-mass relaxation time asked for after any session is, in physical units, the one asked for before it, when the cluster is measured from the same point (its centre, or its position on its orbit)."
  },
  {
   "property": "C125",
   "status": "partial",
   "theorems": [
    "CT.C125_trh_partial",
    "CT.C125_trh_violated",
    "CT.C125_rv_partial"
   ],
   "note": "The property as stated is false of the code at this commit; that too is proved. Refuted: (C125_trh_violated) C125 is violated: conversions leave stored results behind. If the unit of time has changed since the call, the stored relaxation time is not what the method returns now, although both stand for the same time. Proved part: (C125_trh_partial) C125 (relaxation time). Whatever methods are called after `half_mass_relaxation_time`, the attribute `trh` keeps the number returned, in the unit of time of the cluster when the method was called: it is `s.time/r.time` of what the method would return now. (C125_rv_partial) C125 (virial radius). Likewise the attribute `rv` keeps the number returned, in the unit of length of the cluster when `virial_radius(method='critical_density')` was called."
  },
  {
   "property": "C126",
   "status": "proved",
   "theorems": [
    "CT.C126_histories"
   ],
   "note": "(C126_histories) C126. Snapshots `rs 0, rs 1, \u2026` of an NBODY6++ run with stellar evolution files, `n = n0, n0+d, n0+2d, \u2026`: after loading snapshot `n0` and advancing `k` times the cluster is that of snapshot `k` (as in C112), each line of sev.83 has gone to the star with its id, position and velocity, whatever the order of the lines (single stars without a line are marked by type -10), each binary has its ids, types, eccentricity and number, and in solar units its semi-major axis, period and masses are those of the file; binding energies are `m1 m2/(2a)`."
  },
  {
   "property": "C127",
   "status": "partial",
   "theorems": [
    "CT.C127_luminosity_violated",
    "CT.C127_few_binaries_violated",
    "CT.C127_binaries_violated",
    "CT.C127_one_star_violated",
    "CT.C127_no_snapshot_violated"
   ],
   "note": "The property as stated is false of the code at this commit; that too is proved. Refuted: (C127_luminosity_violated) C127 (violated: luminosities of single stars). A star with `log L` between 0 and 1 gets luminosity 1, less than it has. (C127_few_binaries_violated) C127 (violated: few binaries). With fewer than 14 binaries each is given luminosity 1 and radius `10^0`, whatever the file says. (C127_binaries_violated) C127 (violated: many binaries). With 14 binaries or more the luminosity of a binary is the product of those of its components, not the sum, in solar units. (C127_one_star_violated) C127 (violated: one single star). If sev.83 has one line, nothing is loaded: `IndexError`. (C127_no_snapshot_violated) C127 (violated: no stars). If conf.3 does not exist (or has no stars) but the stellar evolution files do, `NameError` is raised, while without them an empty cluster is returned (`getNbody6pp_none`)."
  },
  {
   "property": "C128",
   "status": "proved",
   "theorems": [
    "CT.C128_histories"
   ],
   "note": "(C128_histories) C128. The output of a run is in files `snap.40_n.h5part` (groups) and `conf.3_n` (header) with `n = n0, n0+d, \u2026`. Load the first group of file `n0`, and advance `k` times with the same `dtout = d` (and the same `snapdir`), applying between advances any unit conversions and changes of origin. The cluster that results is group `i` of file `n0 + jd`, where `k` is the number of groups in the files before that plus `i`, at the place that line `n0/d + k` of the orbit file gives, if there is one."
  },
  {
   "property": "C129",
   "status": "partial",
   "theorems": [
    "CT.C129_end_violated",
    "CT.C129_header_violated",
    "CT.C129_scales_violated",
    "CT.C129_stale_violated",
    "CT.C129_attributes_violated"
   ],
   "note": "The property as stated is false of the code at this commit; that too is proved. Refuted: (C129_end_violated) C129 (violated: end of the run). In the situation of C128, at the last group of the last file: the next advance raises `FileNotFoundError`, and does not give a cluster without stars as for the other formats. (C129_header_violated) C129 (violated: header without stars). When `conf.3` says that it has no stars, loading raises `IndexError`, although the stars are in the other file. (C129_scales_violated) C129 (violated: N-body scales). The header gives zero for the number of stars in the core (entry 13): the first group is read with the scales of the header, the second has none: its radius scale is 1 and its time, that the file gives in N-body units, is taken for Myr. (C129_stale_violated) C129 (violated: number of binaries). A group without a part for binaries gets the number of binaries of the group before it. (C129_attributes_violated) C129 (violated: component masses, single stars, radii). The masses of the components of binaries are given as 1, whatever the file says; the number of single stars is given as that number minus the number of binaries; the stored `logr` are the radii, not their logarithms."
  },
  {
   "property": "C130",
   "status": "proved",
   "theorems": [
    "CT.C130_histories",
    "CT.C130_missing"
   ],
   "note": "(C130_histories) C130 (observed clusters). Build a cluster with units `radec` and origin `sky` at any time by any sequence of well-formed calls of `add_stars` with sky coordinates and non-negative masses, and give it its own position on the sky with `add_orbit`. Then any sequence of conversion calls whatsoever runs without exception and ends in a cluster that shows the observations: on the sky the observed coordinates themselves, elsewhere the Galactocentric rows which galpy assigns to them, in the units and frame of its labels. (C130_missing) C130 (missing data). If quantities are missing (zero for all stars), `add_orbit` completes them with those of the cluster: whenever the calls begin with a conversion to another unit system, everything goes on from the completed observations."
  },
  {
   "property": "C131",
   "status": "partial",
   "theorems": [
    "CT.C131_missing_violated",
    "CT.C131_centre_violated",
    "CT.C131_later_orbit_violated",
    "CT.C131_nbody_centre_partial"
   ],
   "note": "The property as stated is false of the code at this commit; that too is proved. Refuted: (C131_missing_violated) C131 (violated: missing data). When a quantity is missing for all stars and the cluster's is known, `add_orbit` completes only the sky columns, not `x \u2026 vz`: the new cluster, in `radec` units with origin `sky`, has coordinates that differ from its sky coordinates, and converting it to `kpckms` and back changes its coordinates. (C131_centre_violated) C131 (violated: the centre). Whatever was observed, after `to_kpckms` the stored centre of a cluster built on the sky is the Galactocentric position that belongs to the sky coordinates `0, 0, 0, 0, 0, 0` (that of the Sun) and `to_centre` subtracts it in addition to the position of the cluster. (C131_later_orbit_violated) C131 (violated: a later orbit). `add_orbit` has no lasting effect once the cluster has been on the sky: whenever an orbit is cached, the position given to `add_orbit` is replaced by that of the cached orbit at the next `to_radec`. Proved part: (C131_nbody_centre_partial) C131 (partial: N-body centres). For a cluster with a centre recorded in N-body length units (`xcn`), going to the sky and back to `kpckms` gives that centre's position; but its velocity becomes zero."
  },
  {
   "property": "C132",
   "status": "proved",
   "theorems": [
    "CT.C132_particles",
    "CT.C132_files",
    "CT.C132_named_file",
    "CT.C132_no_such_file"
   ],
   "note": "(C132_particles) C132 (particles). In `pckms`, `kpckms`, `kpcgyr`, `pcmyr` and in AMUSE's own units a cluster of AMUSE particles has one star per particle, in the same order, which is where the particle is, moves and weighs as it does, and has its key as id; the label of the units, and the origin, are those asked for. It is assumed that AMUSE and clustertools use the same number of pc/Myr in a km/s, that no file has the default name, and that the centre can be found. (C132_files) C132 (files). With the working directory and the width of the numbers given, loading file number `n` and advancing `k` times gives the particles of file number `n + k`, whatever the number of advances. (C132_named_file) C132 (named file). A file that is named and exists is the one read, whatever other files there are and whatever particles are given. (C132_no_such_file) C132 (no such file). A file that is named and does not exist is an `OSError`, when loading and when advancing; particles given are not used instead."
  },
  {
   "property": "C133",
   "status": "partial",
   "theorems": [
    "CT.C133_units_violated",
    "CT.C133_ofile_violated",
    "CT.C133_default_file_violated",
    "CT.C133_numbering_violated",
    "CT.C133_end_violated",
    "CT.C133_time_violated"
   ],
   "note": "The property as stated is false of the code at this commit; that too is proved. Refuted: (C133_units_violated) C133 (violated: units). In N-body, galpy, WD or sky units (and for unknown labels) particles cannot be loaded: `NameError`. (C133_ofile_violated) C133 (violated: orbit file). With an orbit file the call raises `NameError`, in every frame of the cluster. (C133_default_file_violated) C133 (violated: a file of the default name). If there is a file called `0.dat`, the particles given are ignored: the cluster is made of those in the file. (C133_numbering_violated) C133 (violated: width of the numbers). Without the option `nzfill` the file loaded is `\u2026/n.dat` and the file looked for when advancing is `\u2026/0000(n+1).dat`: after loading `0.dat` the cluster is not advanced to `1.dat`, it stays the same. (C133_end_violated) C133 (violated: the end). When there is no next file the old cluster is returned, with all its stars, however often it is advanced: the end of the run does not show, unlike for the other kinds of input, which give a cluster without stars. (C133_time_violated) C133 (violated: time). The age of the cluster stays 0 however many snapshots it is advanced by, and an age cannot be passed (`TypeError`)."
  },
  {
   "property": "C134",
   "status": "proved",
   "theorems": [
    "CT.C134_small_ids",
    "CT.C134_later_calls"
   ],
   "note": "(C134_small_ids) C134 (small ids). If no id exceeds 2^53 in size, then after any history of calls of `add_stars`, with or without ids, of any integer or float type, the cluster's ids are exactly those given, in order, and those counted on from the largest before. (C134_later_calls) C134 (later calls). From the second call on, signed integer ids of any size are stored exactly, and the ids already there are left alone."
  },
  {
   "property": "C135",
   "status": "partial",
   "theorems": [
    "CT.C135_first_call_violated",
    "CT.C135_unsigned_violated",
    "CT.C135_neighbour_violated",
    "CT.C135_distinct_violated"
   ],
   "note": "The property as stated is false of the code at this commit; that too is proved. Refuted: (C135_first_call_violated) C135 (violated: large ids). In the first call of `add_stars` every odd integer id above 2^53 (such as half of the 19-digit source ids of Gaia) is changed. (C135_unsigned_violated) C135 (violated: unsigned ids). Adding unsigned ids (the keys of AMUSE particles) to a cluster that has stars changes every odd id above 2^53, new or old. (C135_neighbour_violated) C135 (violated: what becomes of an id). An odd id between 2^53 and 2^54 becomes, in the first call, the neighbouring multiple of 4. (C135_distinct_violated) C135 (violated: stars that cannot be told apart). Distinct ids become equal: of any three consecutive ids between 2^53 and 2^54, starting with an even one, two are the same after the first call."
  },
  {
   "property": "C136",
   "status": "proved",
   "theorems": [
    "CT.C136_sessions",
    "CT.C136_skyplot",
    "CT.C136_skyplot_restores",
    "CT.C136_starplot",
    "CT.C136_marks",
    "CT.C136_starplot_restores"
   ],
   "note": "(C136_sessions) C136 (sessions): every sequence of conversions, star plots and sky plots, in any order, succeeds, and afterwards the cluster still describes the same stars. (C136_skyplot) C136 (sky plots): a sky plot drawn at any point of a session shows every star at the sky coordinates (right ascension and declination, or proper motions) of its true position, and leaves the cluster in the units and frame it was in. (C136_skyplot_restores) C136 (sky plots leave the stars): when the cluster has linear units and its origin is the galaxy or the cluster, a sky plot changes no star's position or velocity, no mass, neither the cluster's position nor the time. (C136_starplot) C136 (star plots): a star plot of a cluster in linear units always succeeds. Whenever it writes a unit on its axes, the points drawn are, in that unit, exactly the positions of the stars in the frame the cluster is in, in order and on the right axes. (C136_marks) C136 (the centre in the two-panel plot): the marks of the default star plot, in the unit on the axes, are the cluster's position and its centre in the galaxy frame, its centre in the cluster frame, and nothing in the frame of the centre. (C136_starplot_restores) C136 (star plots leave the cluster): the default star plot changes nothing, and neither does a one-panel plot outside `amuse` units."
  },
  {
   "property": "C137",
   "status": "partial",
   "theorems": [
    "CT.C137_amuse_violated",
    "CT.C137_mark_violated",
    "CT.C137_pm_mark_violated",
    "CT.C137_centre_violated"
   ],
   "note": "The property as stated is false of the code at this commit; that too is proved. Refuted: (C137_amuse_violated) C137 is false of the code: a one-panel star plot of any cluster in `amuse` units leaves it in `pckms` units. (C137_mark_violated) C137 is false of the code: a one-panel star plot in the cluster frame marks as \"COM\" the cluster's galactocentric coordinates, which is not where the cluster's position is in that frame. (C137_pm_mark_violated) C137 is false of the code: a plot of proper motions marks the cluster at its right ascension and declination, in the axes of the proper motions. (C137_centre_violated) C137 is false of the code: a sky plot moves the stored centre of a cluster without `xcn`: afterwards it is the centre plus the cluster's galactocentric position."
  },
  {
   "property": "C138",
   "status": "proved",
   "theorems": [
    "CT.C138_plane",
    "CT.C138_motion",
    "CT.C138_separation",
    "CT.C138_turns"
   ],
   "note": "(C138_plane) C138: after any history of recentrings on the sky and `to_sky`, `to_cluster` (`to_centre`) with the orthographic or the van de Ven method gives every star, in degrees, the components of its direction along the east and the north of the cluster's position (of the centre), with the differences of distance and line-of-sight velocity. (C138_motion) C138 (motions): the orthographic `to_cluster` gives every star the components of its motion across the sky along the east and the north of the cluster's position, relative to the cluster's own proper motion. (C138_separation) C138 (angular distance): a row on the plane lies at a distance from the origin that is the sine of the angle between the star and the reference point. (C138_turns) C138 (whole turns): the projections do not depend on whole turns in right ascension."
  },
  {
   "property": "C139",
   "status": "partial",
   "theorems": [
    "CT.C139_flat_turn_violated",
    "CT.C139_flat_split_violated",
    "CT.C139_vandeven_motion_violated"
   ],
   "note": "The property as stated is false of the code at this commit; that too is proved. Refuted: (C139_flat_turn_violated) C139 is false of the code for the default method: a whole turn in right ascension, which is the same direction, moves the star by 360 degrees times the cosine of the declination. (A cluster across right ascension zero is torn apart.) (C139_flat_split_violated) C139 is false of the code for the default method: a cluster at right ascension 0 with a star at 359 degrees and one at 1 degree. Both are one degree away from the cluster along the equator; the first is put at 359 degrees. (C139_vandeven_motion_violated) C139 is false of the code for the van de Ven method: the proper motions are not turned into the axes of the reference point. Whenever the component of the motion along the reference's east is not the star's own proper motion in right ascension, the result is wrong; for a star moving north it is wrong by the sine of its declination times the sine of the difference in right ascension."
  },
  {
   "property": "C140",
   "status": "proved",
   "theorems": [
    "CT.C140_mass_function",
    "CT.C140_bounds",
    "CT.C140_values"
   ],
   "note": "(C140_mass_function) C140 (tapered mass function). For a cluster of positive masses with at least `nmass` selected stars, not all of one mass, `tapered_mass_function` makes contiguous bins from the smallest to the largest selected mass, reports the mean mass, the number and the weighted number per unit mass of the selected stars of every bin, and hands exactly these means and densities to `curve_fit` with the smallest and the largest mass of the cluster as bounds of `mc`. The result is what `curve_fit` found (or its error), and the cluster is left as it was. (C140_bounds) C140 (the characteristic mass). Whenever `tapered_mass_function` returns eleven values, the amplitude is not negative and the characteristic mass lies between the smallest and the largest mass of the cluster. (C140_values) C140 (values). `tapered_dx_function` of positive values that are not all equal reports means, numbers and densities of the bins that hold a value, and hands exactly these to `curve_fit` with the smallest and the largest value as bounds."
  },
  {
   "property": "C141",
   "status": "partial",
   "theorems": [
    "CT.C141_too_few_violated",
    "CT.C141_range_violated"
   ],
   "note": "The property as stated is false of the code at this commit; that too is proved. Refuted: (C141_too_few_violated) C141 (violated: too few stars). With fewer than `nmass` selected stars the function returns seven values, so a caller that unpacks the eleven values of a successful call gets a `ValueError`. (C141_range_violated) C141 (violated: the range of the fit). The bounds of the characteristic mass are those of all stars, not of the selected ones: a star heavier than all selected stars lets the fit put the characteristic mass above every selected mass."
  },
  {
   "property": "C142",
   "status": "proved",
   "theorems": [
    "CT.C142_sample",
    "CT.C142_no_radius",
    "CT.C142_model",
    "CT.C142_no_potential"
   ],
   "note": "(C142_sample) C142 (one radius). `load_cluster('limepy', W0=\u2026, g=\u2026, M=\u2026, rt|rv|rh|rm|r0|rc=\u2026, units='pckms')`: limepy is asked for the model with the central potential, mass and radius given (`rm` means `rh`, `rc` means `r0`), with its own gravitational constant, that of pc, km/s and solar masses; the cluster has the number of stars asked for, or mass over mean mass, rounded down; they are those limepy draws from that model, with its masses, and ids `1 \u2026 N`. (C142_no_radius) C142 (no radius). With a mass and no radius the virial radius is 1 pc. (C142_model) C142 (own model). A model given by the user is the one that is sampled, whatever parameters are given beside it; the default number of stars is its mass over the mean mass. (C142_no_potential) C142 (no potential). Without a model and a central potential the call raises `TypeError`; no model is guessed."
  },
  {
   "property": "C143",
   "status": "partial",
   "theorems": [
    "CT.C143_radius_violated",
    "CT.C143_nbody_violated",
    "CT.C143_number_violated",
    "CT.C143_keywords_violated",
    "CT.C143_two_radii_violated"
   ],
   "note": "The property as stated is false of the code at this commit; that too is proved. Refuted: (C143_radius_violated) C143 (violated: radius without mass). If no mass is given, the radius is ignored, silently: any two calls that differ only in their radii give the same cluster. It is the model with `G = M = rv = 1`, labelled with the units asked for, and has `int(1/mbar)` stars by default. (C143_nbody_violated)  (C143_number_violated) C143 (violated: default number). The documented default of 1000 stars is not there: with neither mass, mean mass nor number the cluster has one star. (C143_keywords_violated) C143 (violated: documented keywords). The documented keywords `ro` (scale radius) and `project` change nothing; `mbar` changes nothing when the number of stars is given, so that the mean mass of the stars need not be the one asked for. (C143_two_radii_violated) C143 (violated: two radii). A limiting radius makes all other radii given beside it, consistent with it or not, be ignored."
  },
  {
   "property": "C144",
   "status": "proved",
   "theorems": [
    "CT.C144_attributes",
    "CT.C144_session",
    "CT.C144_virial",
    "CT.C144_sources"
   ],
   "note": "(C144_attributes) C144 (attributes). After any session every attribute holds what its method returned last, whatever else was called since; before its first call it is as it was. (C144_session) C144 (methods are observers). After any session of conversions, analysis functions and methods, the cluster describes the world it described before, and is exactly the cluster the conversions alone would have left. (C144_virial) C144 (values). Every value the methods returned, and so every value they stored, is that of the function of the same name for a cluster that describes the same world; for `virial_radius` it is the virial radius of the world in one of its units of length, in space or in projection as asked for or else as the cluster is set. (C144_sources) C144 (sources). What is returned for and stored in an attribute comes from a call, in the session, of the method that the attribute is documented to belong to, made on a cluster that describes the same world."
  },
  {
   "property": "C145",
   "status": "partial",
   "theorems": [
    "CT.C145_projected_violated",
    "CT.C145_virial_violated"
   ],
   "note": "The property as stated is false of the code at this commit; that too is proved. Refuted: (C145_projected_violated) C145 (violated: projection). For a cluster set to projection (`projected=True`) the methods disagree about what to do when the keyword is not given: relaxation times, distances to neighbours, Lagrange and virial radii are projected (although their documented default is `False`), mass functions, equipartition fits, kinematic concentration, core radius and limiting radius are not. So `rc` is not the radius `trc` is computed from. (C145_virial_violated) C145 is not vacuous: for the two stars of the demonstration cluster, set to projection, `virial_radius()` without the keyword and `virial_radius(projected=False)`, its documented default, are different numbers."
  },
  {
   "property": "C146",
   "status": "proved",
   "theorems": [
    "CT.C146_tables",
    "CT.C146_subset"
   ],
   "note": "(C146_tables) C146 (tables). After any sequence of `add_sse` and `add_bse` (without `arg`; epochs and spins of binaries always or never given) the columns of a new cluster are those of all rows given, in order: no star or binary is lost or moved against another column. (C146_subset) C146 (selection). The evolution data of a subcluster are the rows of its stars, in order, and of the binaries with at least one component among them."
  },
  {
   "property": "C147",
   "status": "partial",
   "theorems": [
    "CT.C147_places_partial",
    "CT.C147_subset_violated",
    "CT.C147_binaries_violated"
   ],
   "note": "The property as stated is false of the code at this commit; that too is proved. Refuted: (C147_subset_violated) C147 (violated: places). After `add_sse` with `arg` of at least one star no subcluster can be made any more: every selection of the stars raises `IndexError`. (C147_binaries_violated) C147 (violated: binaries). If epochs and spins are given for some binaries only, they are not with their binaries: those of the later call stand at the place of the earlier binaries, and every subcluster raises `IndexError`. Proved part: (C147_places_partial) C147 (partial: places). With `arg` types, luminosities and radii go to the stars named, and the old entries stay; epochs and spins do too, but then they are appended once more, so that their columns are longer than the others."
  },
  {
   "property": "C148",
   "status": "proved",
   "theorems": [
    "CT.C148_same_call",
    "CT.C148_on_the_way",
    "CT.C148_after",
    "CT.C148_recovery",
    "CT.C148_guarded_session",
    "CT.C148_nothing_raised"
   ],
   "note": "(C148_same_call) The traced call is the call: same result, same exception. (C148_on_the_way) C148 (on the way). Whatever the call and its arguments, and wherever between its conversions it is stopped: the cluster the object holds there describes the world it described before the call, with radii, totals and orders that belong to it, and the scales are the same. (C148_after) C148 (after the call). What the object holds when the call is over: the cluster returned, if it returns; otherwise one of the clusters on the way. (C148_recovery) C148 (recovery). Wherever the call is stopped, by an exception or an interrupt between its conversions: `to_units` and `to_origin` with the labels the cluster had bring back exactly the data it had. (C148_guarded_session) C148 (sessions with caught exceptions). After any session in which every exception is caught, whatever was raised and however often, the cluster describes the world it described at the start, and `to_units`, `to_origin` bring back exactly the data of the start. (C148_nothing_raised) C148 (nothing raised). A session in which nothing is raised is the same with and without the catching."
  },
  {
   "property": "C149",
   "status": "partial",
   "theorems": [
    "CT.C149_exception_violated",
    "CT.C149_all_statements",
    "CT.C149_interrupt_violated"
   ],
   "note": "The property as stated is false of the code at this commit; that too is proved. Refuted: (C149_exception_violated) C149 (exception). `relaxation_time` with a radius given raises, whatever the cluster, and leaves it in pc and km/s; unless it was given from its position or centre, it is left around its centre. (C149_interrupt_violated) C149 (interrupt). An interrupt inside `to_kpckms` (after some statement but before the last) leaves a cluster, still labelled pc and km/s, whose time is a thousandth of the true time and, from the second statement on, whose stars' first coordinates are a thousandth of the true ones. Calling `to_kpckms` again does not repair it. Further theorems, see their statements: C149_all_statements."
  },
  {
   "property": "C150",
   "status": "proved",
   "theorems": [
    "CT.C150_kept_values",
    "CT.C150_bracket",
    "CT.C150_rlagrange_step"
   ],
   "note": "(C150_kept_values) C150 (values kept by the caller). `cluster.save_cluster()`, the four saved values copied; then any session of conversions, analysis calls (whose exceptions are caught), other `save_cluster()` and `return_cluster()`; then `cluster.return_cluster(units0, origin0, rorder0, rorder_origin0)` with the copies does not raise and gives back exactly the data the cluster had, described with fresh radii and orders, although a value `None` among the copies is replaced by whatever was saved last. (C150_bracket) C150 (bracket). `save_cluster()`, then conversions and `return_cluster()` in any number, then `return_cluster()`: the last one does not raise and gives back exactly the data the cluster had. (C150_rlagrange_step) `rlagrange` is one of the analysis calls of the sessions."
  },
  {
   "property": "C151",
   "status": "partial",
   "theorems": [
    "CT.C151_analysis_violated",
    "CT.C151_nested_violated",
    "CT.C151_unsaved_violated"
   ],
   "note": "The property as stated is false of the code at this commit; that too is proved. Refuted: (C151_analysis_violated) C151 (analysis in between). `save_cluster()`, conversions to other units or another origin, one `rlagrange(cluster)`, `return_cluster()`: the cluster is left where `rlagrange` was called, not where it was saved. (C151_nested_violated) C151 (nested pairs). An inner `save_cluster() \u2026 return_cluster()` makes the outer `return_cluster()` come back to the inner place. (C151_unsaved_violated) C151 (nothing saved). `return_cluster()` without a `save_cluster()` before raises `AttributeError`, whatever the cluster."
  },
  {
   "property": "C152",
   "status": "proved",
   "theorems": [
    "CT.C152_call",
    "CT.C152_session"
   ],
   "note": "(C152_call) C152 (one call). A call that changes the cluster, made where it is allowed, leaves an analysed cluster with every star where it was. (C152_session) C152 (sessions). Take any session, of any length, of conversions, analysis calls, energies, `virialize`, `add_rotation`, `reset_nbody_scale` and centre finders, each made where it is allowed. If it does not raise, the cluster it leaves is analysed (derived quantities and stored order belong to it) and has the same stars at the same time, with the same masses and at the same places in the galaxy. The velocities are also the same unless `virialize` or `add_rotation` was called, and the centre and the orbit position unless a centre finder was."
  },
  {
   "property": "C153",
   "status": "partial",
   "theorems": [
    "CT.C153_order_not_renewed_violated",
    "CT.C153_stored_centre_violated"
   ],
   "note": "The property as stated is false of the code at this commit; that too is proved. Refuted: (C153_order_not_renewed_violated) C153 is violated: a cluster seen from its position on its orbit that still has the radial order of its centre frame keeps that order when another centre is stored and `to_centre()` is called, whatever the new centre is. (C153_stored_centre_violated) C153 is violated by a sequence of public calls: `to_centre()`, `to_cluster(sortstars=False)`, `find_centre_of_mass()`, `to_centre()`. The stars are then at distances 2.25 and 0.75 from the centre, the stored order says the first one is nearer, and the 10 per cent radius of the analysis is 2.25 although the other star alone has three quarters of the mass."
  },
  {
   "property": "C154",
   "status": "proved",
   "theorems": [
    "CT.C154_virial_radius",
    "CT.C154_closest_star",
    "CT.C154_lagrange_radii",
    "CT.C154_half_mass_relaxation"
   ],
   "note": "(C154_virial_radius) C154 (virial radius). After any allowed session the virial radius is the one before it, by either implementation, in space and in projection, in the units of length of either cluster. (C154_closest_star) C154 (distances to neighbours). After any allowed session of a cluster of two or more stars, the distance of every star to the star nearest to it is the one before it. (C154_lagrange_radii) C154 (Lagrange radii). After any allowed session without a centre finder, of a cluster measured from the same point (its centre, or its position on its orbit), every Lagrange radius is the one before it. (C154_half_mass_relaxation) C154 (half-mass relaxation time). Under the same conditions, the half-mass relaxation time."
  },
  {
   "property": "C155",
   "status": "proved",
   "theorems": [
    "CT.C155_session",
    "CT.C155_orbital_path",
    "CT.C155_sky_path",
    "CT.C155_tail_path",
    "CT.C155_orbital_match",
    "CT.C155_tail_match",
    "CT.C155_to_tail"
   ],
   "note": "(C155_session) C155 (observers). Sessions of conversions, analysis functions and the methods `orbital_path`, `orbital_path_match`, `to_tail`, `tail_path`, `tail_path_match`, of any length: the cluster describes the same world, and is exactly the one the conversions alone would have left. (C155_orbital_path) C155 (orbital path). `orbital_path` returns what the function returns, and `tpath, xpath, \u2026` keep it until `orbital_path` or `tail_path` is called again. (C155_sky_path) C155 (sky path). The same with `skypath=True`. (C155_tail_path) C155 (tail path). `tail_path(dt)` returns what the function returns for `tfinal = dt`, and `tpath, xpath, \u2026` keep it. (C155_orbital_match) C155 (matches). `tstar, dprog, dpath` are what the last of `orbital_path_match` and `tail_path_match` returned: what the function returns. (C155_tail_match)  (C155_to_tail) C155 (tail coordinates). After `to_tail`, until it is called again, `r_tail` and `v_tail` are the distances and speeds of the stars relative to the centre (rows given from the cluster's position as they are), whatever the rotation, and `x_tail` times the cluster's speed is the component along its orbital velocity."
  },
  {
   "property": "C156",
   "status": "partial",
   "theorems": [
    "CT.C156_orbit_violated",
    "CT.C156_tfinal_violated",
    "CT.C156_stale_violated"
   ],
   "note": "The property as stated is false of the code at this commit; that too is proved. Refuted: (C156_orbit_violated) C156 is violated: `initialize=True` loses the present. `orbital_path(initialize=True)` leaves the rows of the cluster alone, but the orbit it stores begins where the cluster was `tfinal` ago, and the next `to_radec` gives that place as the cluster's place in the sky. (C156_tfinal_violated) C156 is violated: `tfinal` is ignored. `tail_path` and `tail_path_match` accept a keyword `tfinal`, as the functions of that name do, and take no notice of it. (C156_stale_violated) C156 is violated: conversions leave the path behind. A path asked for before a change of the unit of time, and asked for again now over the same time: the times stored are not those now returned, although both stand for the same times."
  },
  {
   "property": "C157",
   "status": "proved",
   "theorems": [
    "CT.C157_half_light",
    "CT.C157_session"
   ],
   "note": "(C157_half_light) C157 (analyze). `analyze()` of a cluster with one luminosity for each star, whose stored order (if made for this origin) is a sort of the current radii, does to the cluster what it does without luminosities, and `rh` and `rh10` are the radii of the smallest spheres of stars with a half and a tenth of the light; `rhpro` and `rh10pro` likewise in projection if there is no stored projected order, or a right one. (C157_session) C157 (sessions). After any session of conversions and analysis functions, `analyze()` gives the half-light radius of the cluster's stars about the current origin: in parsecs it depends on the world, the luminosities and the origin only."
  },
  {
   "property": "C158",
   "status": "partial",
   "theorems": [
    "CT.C158_too_few_violated",
    "CT.C158_add_stars_violated",
    "CT.C158_projected_violated",
    "CT.C158_stale_order_violated"
   ],
   "note": "The property as stated is false of the code at this commit; that too is proved. Refuted: (C158_too_few_violated) C158 is violated: one luminosity too few. If there are fewer luminosities than stars, but some, `analyze()` raises `IndexError`, whatever the cluster. (C158_add_stars_violated) C158 is violated: adding stars. Stars added to a cluster with luminosities: `add_stars` raises, with the rows in place but `ntot` still the old number. (C158_projected_violated) C158 is violated: no projected order. Without one (`analyze(projected=False)`) the projected half-light radius of a cluster is 0, which is not its half-light radius unless half of the light is at radius 0. (C158_stale_order_violated) C158 is violated: a projected order made for another origin. There is a cluster with right orders, and luminosities, whose projected half-light radius is wrong after `to_galaxy()`, which analyses it."
  },
  {
   "property": "C159",
   "status": "proved",
   "theorems": [
    "CT.C159_plain",
    "CT.C159_energies",
    "CT.C159_round_trip"
   ],
   "note": "(C159_plain) C159 (plain). Without options `snapout` writes one row for each star: mass, position, velocity, id, and the stellar type if there is one for each star. So C42 is about this function. (C159_energies) C159 (energies). With stellar types and energies for all stars `snapout(energies=True)` writes the twelve documented columns, one row for each star in order, and touches no other file. (C159_round_trip) C159 (read back). A file written with energies and loaded with the written column layout gives the same stars, masses, ids and types."
  },
  {
   "property": "C160",
   "status": "partial",
   "theorems": [
    "CT.C160_radec_violated",
    "CT.C160_no_types_violated",
    "CT.C160_no_energies_violated",
    "CT.C160_stale_energies_violated"
   ],
   "note": "The property as stated is false of the code at this commit; that too is proved. Refuted: (C160_radec_violated) C160 is violated: sky coordinates. `snapout(radec=True)` raises `TypeError` and writes nothing, whatever the cluster. (C160_no_types_violated) C160 is violated: energies without stellar types. `snapout(energies=True)` raises for every cluster that does not have a stellar type for each star, though energies are there and without `energies=True` it is written. (C160_no_energies_violated) C160 is violated: no energies. For a cluster whose energies have not been calculated `snapout(energies=True)` raises. (C160_stale_energies_violated) C160 is violated: energies in other units than velocities. Energies calculated in pc and km/s, then `to_nbody`: in the row written for any moving star the kinetic energy is not half the square of the velocity beside it."
  },
  {
   "property": "C161",
   "status": "proved",
   "theorems": [
    "CT.C161_return",
    "CT.C161_half_mass"
   ],
   "note": "(C161_return) C161. A cluster that came to the sky by any history of calls: `save_cluster`, any further calls of conversions (leaving the sky, coming back, recentring), `return_cluster` with what was saved. None of it raises, and the cluster shows the same stars on the sky. (C161_half_mass) C161 (relaxation time). `half_mass_relaxation_time` of a cluster on the sky does not raise and leaves the stars as they were on the sky."
  },
  {
   "property": "C162",
   "status": "partial",
   "theorems": [
    "CT.C162_radius_violated",
    "CT.C162_centre_violated"
   ],
   "note": "The property as stated is false of the code at this commit; that too is proved. Refuted: (C162_radius_violated) C162 is violated: the wrong radius. The half-mass relaxation time of a cluster on the sky, in Gyr, is Spitzer's for the half-mass radius of its stars about the Galactic centre: if no star is nearer to it than `D`, for a radius of at least `D`, however compact the cluster. (C162_centre_violated) C162 is violated: the centre wanders. Bring a cluster to the sky and ask for its half-mass relaxation time `n` times: the stored centre has moved from the sky position of the cluster's centre to that of the point `n` times the cluster's own galactocentric position further."
  },
  {
   "property": "C163",
   "status": "proved",
   "theorems": [
    "CT.C163_angle"
   ],
   "note": "(C163_angle) C163. On the sky, `rtidal` without iteration gives the angle under which the tidal radius of the whole cluster at its galactocentric position is seen, and leaves the cluster as it was on the sky."
  },
  {
   "property": "C164",
   "status": "partial",
   "theorems": [
    "CT.C164_iterate_violated",
    "CT.C164_from_centre_violated"
   ],
   "note": "The property as stated is false of the code at this commit; that too is proved. Refuted: (C164_iterate_violated) C164 is violated: iterating loses the cluster. With at least one iteration the answer is zero as soon as the stars are at least as far from the Galactic centre as the first estimate, however small the cluster is. (C164_from_centre_violated) C164 is violated: `from_centre` doubles the distance. With the cluster's position on the sky stored as such, the potential is evaluated at the galactocentric position of the cluster's centre plus that of the cluster, instead of at the cluster's centre."
  },
  {
   "property": "C165",
   "status": "proved",
   "theorems": [
    "CT.C165_harfst",
    "CT.C165_casertano",
    "CT.C165_agree",
    "CT.C165_method"
   ],
   "note": "(C165_harfst) C165 (the function). `find_centre_of_density` with shrinking spheres gives their end point on the selected stars and leaves the cluster as it was. (C165_casertano) C165 (the function, Casertano & Hut). (C165_agree) C165 (`find_centre` finds the same). Whatever method, `find_centre` with `density=True` gives what `find_centre_of_density` gives. (C165_method) C165 (the method, default). The method with the default `method` returns the end point of the shrinking spheres on the selected stars, and `to_centre` afterwards puts the stars relative to it; nothing else about the stars changes."
  },
  {
   "property": "C166",
   "status": "partial",
   "theorems": [
    "CT.C166_method_violated",
    "CT.C166_unknown_violated"
   ],
   "note": "The property as stated is false of the code at this commit; that too is proved. Refuted: (C166_method_violated) C166 is violated: the method ignores `method`. For Casertano & Hut (or any other method) the function gives the density centre, but the method with the same arguments stays at the starting point if there are not more than `nsphere` stars, wherever the stars are. (C166_unknown_violated) C166 is violated: a mistyped `method` goes unnoticed. The function raises, the method answers."
  },
  {
   "property": "C167",
   "status": "proved",
   "theorems": [
    "CT.C167_sub_cluster",
    "CT.C167_unit_total"
   ],
   "note": "(C167_sub_cluster) C167. `sub_cluster(\u2026, reset_nbody=True)`, or with `reset_nbody_mass`/`reset_nbody_radii`, gives the cluster of the selected stars: the same stars at the same places in the galaxy, in the units and origin of the parent, for any units of the parent (N-body units included). Its unit of mass is its own total mass if that was asked for, its unit of length its own virial radius or 4/3 of its own half-mass radius, and the units of velocity and time go with them; what has been derived is up to date. (C167_unit_total) C167, N-body units. In N-body units a cluster with its own scales has total mass 1, and virial radius 1 if that is its unit of length."
  },
  {
   "property": "C168",
   "status": "partial",
   "theorems": [
    "CT.C168_mass_only_violated",
    "CT.C168_projected_ignored_violated",
    "CT.C168_keyword_violated"
   ],
   "note": "The property as stated is false of the code at this commit; that too is proved. Refuted: (C168_mass_only_violated) C168, only the mass. With `reset_nbody_mass=True` alone the unit of length is replaced all the same: here it was 2 pc, the new cluster has the same two stars, and its unit is 4/3 of their half-mass radius. (C168_projected_ignored_violated) C168, the projection. `reset_projected` means nothing unless `reset_rvirial` is given too. (C168_keyword_violated) C168, the keywords. Any of the keywords documented for `virial_radius` makes `reset_nbody_scale` raise a `TypeError`, on every cluster, and leaves the cluster in pc and km/s about its centre."
  },
  {
   "property": "C169",
   "status": "proved",
   "theorems": [
    "CT.C169_sub_cluster_centre"
   ],
   "note": "(C169_sub_cluster_centre) C169. `sub_cluster(\u2026, reset_centre=True)` of a cluster given about its position or about the galactic centre is the cluster of the selected stars about their own centre: the same stars at the same places in the galaxy, with their centre (or, about the galactic centre, their position) at the point that shrinking spheres lead to on the selected stars alone. New N-body scales, if asked for, are measured about that centre."
  },
  {
   "property": "C170",
   "status": "partial",
   "theorems": [
    "CT.C170_from_centre_violated"
   ],
   "note": "The property as stated is false of the code at this commit; that too is proved. Refuted: (C170_from_centre_violated) C170, from the centre. Of a cluster given about its centre, `reset_centre=True` leaves the centre where the parent has it, but without its velocity: the stars of the new cluster, and its centre, are at the right places, and every velocity in the galaxy is off by the velocity of the centre."
  },
  {
   "property": "C171",
   "status": "proved",
   "theorems": [
    "CT.C171_nearest",
    "CT.C171_computed"
   ],
   "note": "(C171_nearest) C171. A cluster in kpc at the Galactic centre, and a path on the sky: every star is matched to the point of the path that is nearest to it in right ascension and declination; the time (Gyr), the distance along the path and the distance from it (degrees) are those of that point. The cluster describes the same stars afterwards, with the same labels. (C171_computed) C171 (own path). Without a path given the path is the orbit of the cluster seen on the sky, from `tfinal` Gyr ago to `tfinal` Gyr from now."
  },
  {
   "property": "C172",
   "status": "partial",
   "theorems": [
    "CT.C172_parsec_violated",
    "CT.C172_offsets_violated",
    "CT.C172_sky_violated",
    "CT.C172_from_centre_violated",
    "CT.C172_tfinal_violated"
   ],
   "note": "The property as stated is false of the code at this commit; that too is proved. Refuted: (C172_parsec_violated) C172 is violated in parsec: the angles are converted as if they were kpc: both distances come out a thousand times the number of degrees. (C172_offsets_violated) C172 is violated about the cluster: the stars are then given by their offsets from the cluster on the sky and are compared, so, with a path given by right ascensions and declinations: a star exactly at the cluster is matched to the point of the path nearest to right ascension zero and declination zero. (C172_sky_violated) C172 is violated on the sky: for a cluster that is on the sky already the degrees are taken to be kpc and turned into an angle again, at the distance `D` of the cluster. (C172_from_centre_violated) C172 is violated for `from_centre`: it has no effect on the path that is computed. (C172_tfinal_violated) C172 is violated for `tfinal`: in pc and km/s, where times are in Myr, the path extends over `tfinal` Gyr."
  },
  {
   "property": "C173",
   "status": "proved",
   "theorems": [
    "CT.C173_sky_tail",
    "CT.C173_each_star_once",
    "CT.C173_match"
   ],
   "note": "(C173_sky_tail) C173. `tail_path(skypath=True)` without `dmax` and with `ntail \u2264 nt`, from any linear units and origin: the orbit of the cluster (or of its centre) is seen on the sky at `no` times from `tfinal` Gyr ago to `tfinal` Gyr from now; every star belongs to the point of it that is nearest in right ascension and declination; the times are divided into contiguous bins, and there is one entry, in the order of time, for each bin that holds stars: the time of the bin in the units of the cluster and the place on the sky of the mean of its stars in space. There is at least one entry, and the cluster describes the same stars afterwards with the same labels. (C173_each_star_once) C173 (no star lost, none counted twice). (C173_match) C173 (matching). `tail_path_match(skypath=True)` of a cluster in kpc at the Galactic centre, without a path and `dmax`, matches every star to the entry of that tail path nearest on the sky."
  },
  {
   "property": "C174",
   "status": "partial",
   "theorems": [
    "CT.C174_dmax_violated",
    "CT.C174_observer_violated",
    "CT.C174_roaming_violated"
   ],
   "note": "The property as stated is false of the code at this commit; that too is proved. Refuted: (C174_dmax_violated) C174 is violated for `dmax`: the distance from the orbit on the sky, in degrees, is compared with `dmax` in kpc. (C174_observer_violated) C174 is violated for the observer: the entries are seen from the Sun of coordinates.py whatever the constants of the cluster are: when all stars are at one place and the cluster's own Sun sees that place elsewhere, no entry is where the stars are on the sky. (C174_roaming_violated) C174 is violated for `ntail > nt`, as in C60: a star is counted only in the first window that holds it."
  },
  {
   "property": "C175",
   "status": "proved",
   "theorems": [
    "CT.C175_session",
    "CT.C175_labels",
    "CT.C175_question",
    "CT.C175_save_return",
    "CT.C175_same_conversions",
    "CT.C175_round_trip"
   ],
   "note": "(C175_session) C175 (the stars). After any session the cluster describes the same stars, on the sky or in linear units as its label says, and its radii and totals belong to the rows it shows. (C175_labels) C175 (the labels). Units and origin after a session are those its conversions ask for; questions leave no trace in them. (C175_question) C175 (one question). After any session, a question that does not raise gives the cluster back: same units and origin, same rows on the sky, and in linear units the same rows from the Galactic centre or the cluster's position. (C175_save_return) C175 (save and return). After any session, `save_cluster`, any conversions and `return_cluster` do not raise, and give the view back. (C175_same_conversions) C175 (interleaving). Two sessions with the same conversions in the same order, whatever was asked in between, end in the same view. (C175_round_trip) C175 (round trip). A session that ends in the units and origin it started in shows what it showed at the start."
  },
  {
   "property": "C176",
   "status": "proved",
   "theorems": [
    "CT.C176_function",
    "CT.C176_method",
    "CT.C176_first_visit"
   ],
   "note": "(C176_function) C176 (the function). Called on a cluster on the sky, `interpolate_orbits` returns the sky coordinates of every star after the given time (in Gyr; 12 Gyr if none is given), each on its own orbit, and leaves the cluster as it was. (C176_method) C176 (the method). Afterwards the cluster describes, on the sky, the stars and the cluster itself that long later, each on its own orbit. (C176_first_visit) C176 (first visit). A cluster in linear units that has no orbits yet and is moved by `interpolate_orbit` shows the moved cluster and the stars moved with it, after any conversions, on the sky or off it."
  },
  {
   "property": "C177",
   "status": "partial",
   "theorems": [
    "CT.C177_back_violated",
    "CT.C177_stars_stay_violated",
    "CT.C177_old_places_violated",
    "CT.C177_recentred_violated"
   ],
   "note": "The property as stated is false of the code at this commit; that too is proved. Refuted: (C177_back_violated) C177 violated (back from the sky). The method does not touch the orbits the cluster keeps: leaving the sky afterwards brings back the old places of the stars and of the cluster. (C177_stars_stay_violated) C177 violated (the stars stay). The method `interpolate_orbit`, which in linear units moves the stars with the cluster, moves on the sky the cluster alone: the stars keep their sky coordinates. (C177_old_places_violated) C177 violated (old places). A cluster that has been on the sky before keeps the orbits of that time: moved by `interpolate_orbit` in linear units and taken to the sky, it shows the cluster and the stars where they were, not where they are. (C177_recentred_violated) C177 violated (recentred). On the sky with the origin at the cluster or its centre `interpolate_orbits` raises."
  },
  {
   "property": "C178",
   "status": "proved",
   "theorems": [
    "CT.C178_linear",
    "CT.C178_there_and_back",
    "CT.C178_sky"
   ],
   "note": "(C178_linear) C178 (in linear units). Moved by `interpolate_orbit` through any list of times, one after the other, forwards or backwards, the cluster and its stars are where one move by the sum of the times takes them. (Units in which velocities are right, see `C87_velocity_violated`.) (C178_there_and_back) C178 (there and back). A list of times that add up to nothing brings the cluster and every star back. (C178_sky) C178 (on the sky). A cluster on the sky moved by `interpolate_orbits` through any list of times (Gyr), one after the other, shows the stars and the cluster where they are after the sum of the times."
  },
  {
   "property": "C179",
   "status": "proved",
   "theorems": [
    "CT.C179_default",
    "CT.C179_sky",
    "CT.C179_no_time",
    "CT.C179_default_stars"
   ],
   "note": "(C179_default) C179 (default). Giving the cluster's own scales is giving none. (C179_sky) C179 (on the sky). On the sky the given scales are used throughout: if a body at `P` is seen, at the given scales, where the cluster is seen, `interpolate_orbit` returns where that body is seen after the given time, and leaves the cluster as it was. (C179_no_time) C179 (no time). With no time to move in, the place returned is where the cluster is seen. (C179_default_stars) C179 (default, the stars)."
  },
  {
   "property": "C180",
   "status": "partial",
   "theorems": [
    "CT.C180_rescaled_violated",
    "CT.C180_jump_violated",
    "CT.C180_stars_violated",
    "CT.C180_expand_violated"
   ],
   "note": "The property as stated is false of the code at this commit; that too is proved. Refuted: (C180_rescaled_violated) C180 (linear units). Off the sky the orbit with `ro`, `vo` given is not the cluster's: it is that of a body whose distances are `ro` over the cluster's `ro` times the cluster's (velocities likewise), because the row is made with the cluster's scales and read with the given ones. (C180_jump_violated) C180 (the method). Moving the cluster by no time at all, with `ro` given, takes it to its galactocentric position times the given `ro` over its own. (C180_stars_violated) The stars. (C180_expand_violated) C180 (the stars). With the origin at the cluster or its centre, moving the stars by no time blows the cluster up by the same ratio."
  }
 ]
}