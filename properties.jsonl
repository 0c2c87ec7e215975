{"id": "C01", "title": "Unit conversions preserve the physical cluster", "statement": "Calling any of to_pckms, to_kpckms, to_pcmyr, to_kpcgyr, to_nbody, to_galpy, to_WDunits, to_amuse (or to_units) on a cluster changes only the numbers used to express it: every star's physical position (pc), velocity (km/s), mass (Msun), the cluster centre, the galactocentric position of the cluster and the physical time (Myr) are the same before and after, and afterwards the unit label is the requested one.", "quantifier": "every cluster (any number of stars, any values), every starting unit system except radec, every target, all non-zero scale factors", "why_tests_cant": "Each of the 8x8 conversions touches 19 separate fields; a test samples a few pairs and fields while one forgotten field or wrong direction corrupts only some combination.", "anchors": ["clustertools/cluster/operations.py:to_pckms", "clustertools/cluster/operations.py:to_kpckms", "clustertools/cluster/operations.py:to_pcmyr", "clustertools/cluster/operations.py:to_kpcgyr", "clustertools/cluster/operations.py:to_nbody", "clustertools/cluster/operations.py:to_galpy", "clustertools/cluster/operations.py:to_WDunits", "clustertools/cluster/operations.py:to_amuse", "clustertools/cluster/operations.py:from_amuse", "clustertools/cluster/operations.py:to_units"]}
{"id": "C02", "title": "Unit conversion is path independent", "statement": "After any sequence of unit conversions the cluster's stars, centre, orbit position, masses and time depend only on the last target unit system: they are what a single direct conversion would have produced.", "quantifier": "every finite sequence of unit-conversion calls from every starting state", "why_tests_cant": "The number of call sequences is unbounded.", "anchors": ["clustertools/cluster/operations.py:to_units"]}
{"id": "C03", "title": "Unit conversion round-trips", "statement": "Converting to any sequence of other units and then back to the original units restores every star's position, velocity and mass, the centre, the galactocentric position and the time exactly (in exact arithmetic).", "quantifier": "every cluster, every sequence of unit conversions that ends with the original units", "why_tests_cant": "Unbounded sequences and real-valued data.", "anchors": ["clustertools/cluster/operations.py:to_units"]}
{"id": "C04", "title": "Converting to the current units is a no-op on the data", "statement": "Calling to_X on a cluster already in units X leaves positions, velocities, masses, centre, galactocentric position, time and the labels untouched.", "quantifier": "every cluster and unit system (for to_nbody: clusters whose binaries are already in nbody units)", "why_tests_cant": "Has to hold for all data values and all unit systems; a repeated multiplication is invisible when the factor happens to be 1.", "anchors": ["clustertools/cluster/operations.py"]}
{"id": "C05", "title": "Clusters without units or origin are left alone", "statement": "If a cluster has no unit label, no unit-conversion call changes it; if it has no origin label, to_centre, to_cluster, to_galaxy, to_sky and to_origin do not change it; to_units with an unknown name does not change it.", "quantifier": "every cluster with units=None / origin=None, every conversion call", "why_tests_cant": "A single entry point that forgets the guard silently attaches a wrong unit label.", "anchors": ["clustertools/cluster/operations.py:to_amuse", "clustertools/cluster/operations.py:to_units", "clustertools/cluster/operations.py:to_origin"]}
{"id": "C06", "title": "Origin changes preserve galactocentric phase space", "statement": "to_centre, to_cluster, to_galaxy and to_origin only move the reference point: the galactocentric position and velocity of every star implied by (coordinates, origin label, centre, cluster position) is unchanged, as are masses, time, centre and cluster position; afterwards the origin label is the requested one.", "quantifier": "every cluster in any non-radec units with origin centre, cluster or galaxy; every sequence of origin changes", "why_tests_cant": "A wrong sign or a missed component in one of the six moves only shows when the centre offset or velocity is non-zero; sequences are unbounded.", "anchors": ["clustertools/cluster/operations.py:to_centre", "clustertools/cluster/operations.py:to_cluster", "clustertools/cluster/operations.py:to_galaxy", "clustertools/cluster/operations.py:to_origin"]}
{"id": "C07", "title": "Origin changes are path independent and round-trip", "statement": "After any sequence of origin changes the coordinates depend only on the last target, and returning to the original origin restores every coordinate exactly.", "quantifier": "every cluster, every finite sequence of origin changes (non-radec)", "why_tests_cant": "Unbounded sequences.", "anchors": ["clustertools/cluster/operations.py:to_origin"]}
{"id": "C08", "title": "Unit and origin changes commute", "statement": "Interleaving unit conversions and origin changes in any order gives a state that depends only on the last unit target and the last origin target.", "quantifier": "every finite interleaving of unit conversions and origin changes on non-radec clusters", "why_tests_cant": "Unbounded interleavings; breaks if the centre or the cluster's orbit position is not rescaled together with the stars.", "anchors": ["clustertools/cluster/operations.py"]}
{"id": "C09", "title": "Analysis restores the caller's cluster", "statement": "If a caller saves the state with save_cluster, any sequence of unit and origin changes is performed, and return_cluster is called with the saved values, then units, origin, positions, velocities, masses, centre, cluster position, time and the stored radial order are exactly the saved ones.", "quantifier": "every cluster, every sequence of conversions in between", "why_tests_cant": "This is the contract every analysis function relies on (energies, rlagrange, relaxation times, ...) and the sequences differ per function.", "anchors": ["clustertools/cluster/operations.py:save_cluster", "clustertools/cluster/operations.py:return_cluster"]}
{"id": "C10", "title": "The gravitational constant matches the unit system", "statement": "The circular-velocity identity v^2 = G m / r evaluated with the library's G gives the same physical answer in pckms, kpckms, pcmyr and kpcgyr; and, for nbody clusters whose scales satisfy vbar^2 = G zmbar / rbar, in nbody units.", "quantifier": "all masses, radii, velocities and unit systems listed", "why_tests_cant": "Must hold for all values; a misplaced power of 1000 or of the pc/Myr factor affects only one unit system.", "anchors": ["clustertools/util/constants.py:_get_grav", "clustertools/cluster/operations.py:reset_nbody_scale"]}
{"id": "C11", "title": "Derived star quantities are consistent after analysis", "statement": "After analyze() every star's r, v, projected radius and projected velocity equal the norms of its coordinates, the total mass is the sum of the star masses and the mean mass is total/number; these survive every unit or origin conversion called with analysis on.", "quantifier": "every non-empty cluster and every conversion sequence", "why_tests_cant": "Cached quantities can go stale after some sequence of calls only.", "anchors": ["clustertools/cluster/cluster.py:StarCluster.analyze"]}
{"id": "C12", "title": "Binary unit conversions round-trip", "statement": "to_audays and to_sudays express semi-major axis, period and component masses of every binary in the requested unit; converting nbody->audays->sudays->nbody in any order restores them, and a conversion never changes the unit label without converting the values.", "quantifier": "every binary list, every sequence of binary unit conversions", "why_tests_cant": "Unbounded sequences and label/value mismatches invisible to single-call tests.", "anchors": ["clustertools/cluster/operations.py:to_audays", "clustertools/cluster/operations.py:to_sudays", "clustertools/cluster/operations.py:to_nbody"]}
{"id": "C13", "title": "Sky conversion round-trips and reflects current positions", "statement": "to_radec followed by to_kpckms restores galactocentric coordinates, and after to_radec the sky coordinates are those of the current star positions, whatever operations were applied before.", "quantifier": "every cluster history of conversions and velocity/position rescalings", "why_tests_cant": "Depends on whether a cached orbit object from an earlier call is reused: only particular histories expose it.", "anchors": ["clustertools/cluster/operations.py:to_radec", "clustertools/cluster/operations.py:from_radec", "clustertools/cluster/cluster.py:StarCluster.virialize"]}
{"id": "C14", "title": "Sky-plane recentring is reversible", "statement": "In radec units, to_cluster and to_centre followed by to_sky restores ra, dec, distance, proper motions and line-of-sight velocity of every star exactly, for all three centre methods and from any of the three origins.", "quantifier": "every radec cluster, any sequence of to_cluster/to_centre/to_sky with any centre_method", "why_tests_cant": "Unbounded sequences; the sky-plane projections are not invertible pointwise so correctness depends on the stored sky coordinates staying in step.", "anchors": ["clustertools/cluster/operations.py:to_sky", "clustertools/cluster/operations.py:to_cluster", "clustertools/cluster/operations.py:to_centre"]}
{"id": "C15", "title": "The stored radial order is a sort of the current radii", "statement": "After any sequence of unit and origin conversions and calls to analyze/sortstars with sorting on (the default), the stored radial order is a permutation of all stars, sorted by their current radius. (Projected order and sorting off: see C64.)", "quantifier": "every cluster whose stored order is current or absent, and every finite sequence of conversions", "why_tests_cant": "Staleness appears only for particular histories (e.g. projected sort, then origin change).", "anchors": ["clustertools/cluster/cluster.py:StarCluster.sortstars", "clustertools/cluster/cluster.py:StarCluster.analyze"]}
{"id": "C16", "title": "Half-mass radius", "statement": "After analyze() on a cluster with positive masses, rm is the radius of a star such that the stars sorted strictly before it hold less than half of the mass and those up to and including it hold at least half; r10 is the analogous 10% radius and r10 <= rm.", "quantifier": "every non-empty cluster with non-negative masses, after every history of conversions with sorting on (sorting off: see C64)", "why_tests_cant": "Boundary conditions (exactly half, ties) for all mass distributions.", "anchors": ["clustertools/cluster/cluster.py:StarCluster.analyze"]}
{"id": "C17", "title": "Lagrange radii", "statement": "rlagrange(nlagrange=n) (three-dimensional, the default; projected: see C64) returns n radii, non-decreasing, the k-th being the smallest star radius within which at least k/n of the total mass lies, independently of the current units up to the length scale factor, and the cluster is returned in its original state. rlagrange(mfrac=f) with 0 < f <= 1 is likewise the smallest star radius within which at least the fraction f lies.", "quantifier": "every non-empty cluster with positive masses and every n>=1", "why_tests_cant": "For all sizes, ties and mass spectra.", "anchors": ["clustertools/analysis/functions.py:rlagrange"]}
{"id": "C18", "title": "Star arrays stay aligned under add_stars", "statement": "After any sequence of add_stars calls with per-star arrays of equal length (or scalars to be broadcast) every per-star array has the same length ntot, the new stars appear with the given values in the given order, previously added stars keep their values, and auto-generated ids of a call are distinct from each other and from all ids present. (Whether calls succeed, and calls with binaries: see C65.)", "quantifier": "every sequence of add_stars calls", "why_tests_cant": "Alignment of a dozen parallel arrays over unbounded histories with optional arguments.", "anchors": ["clustertools/cluster/cluster.py:StarCluster.add_stars"]}
{"id": "C19", "title": "Binary centre of mass", "statement": "Adding binaries through add_binary_stars places at the centre-of-mass position a star of the summed mass whose mass-weighted position and velocity equal the sum over the two components, for every call including the second and later ones.", "quantifier": "every sequence of add_binary_stars calls", "why_tests_cant": "Only repeated calls with different sizes reveal misuse of accumulated arrays.", "anchors": ["clustertools/cluster/cluster.py:StarCluster.add_binary_stars"]}
{"id": "C20", "title": "Subset selection is exactly the requested filter", "statement": "Functions taking (rmin,rmax,mmin,mmax,vmin,vmax,emin,emax,kwmin,kwmax,indx) act on precisely the stars that satisfy all given inclusive bounds and belong to the given mask.", "quantifier": "all clusters, all bounds present or absent, all masks", "why_tests_cant": "2^10 combinations of optional filters times arbitrary data; boundary inclusion.", "anchors": ["clustertools/cluster/cluster.py:StarCluster._get_subset"]}
{"id": "C21", "title": "Subset selection does not modify the caller's mask", "statement": "Passing a boolean mask to an analysis function leaves the caller's mask unchanged, so calling two analysis functions with the same mask uses the same stars.", "quantifier": "all masks, all filters, all sequences of calls sharing a mask", "why_tests_cant": "Aliasing bugs only show when the same array is reused.", "anchors": ["clustertools/cluster/cluster.py:StarCluster._get_subset", "clustertools/analysis/functions.py:ckin"]}
{"id": "C22", "title": "sub_cluster is row-consistent", "statement": "sub_cluster returns exactly the selected stars in the original order with every per-star attribute taken from the same row, and its star counts equal the number of selected stars; with no filter it returns all stars.", "quantifier": "all clusters and selections", "why_tests_cant": "Alignment of ~25 optional arrays for arbitrary selections.", "anchors": ["clustertools/cluster/cluster.py:StarCluster.sub_cluster", "clustertools/cluster/cluster.py:sub_cluster"]}
{"id": "C23", "title": "overlap_cluster keeps exactly the close stars", "statement": "overlap_cluster(a,b,tol) keeps exactly the stars of a whose distance to at least one star of b is below tol.", "quantifier": "all pairs of clusters and tolerances", "why_tests_cant": "For all data.", "anchors": ["clustertools/cluster/cluster.py:overlap_cluster"]}
{"id": "C24", "title": "bin_index places every value in its bin", "statement": "For contiguous increasing bins every value x with lower[0] <= x <= upper[-1] is assigned the index i with lower[i] <= x < upper[i] (the last bin also holds its upper edge), and every assigned index is a valid bin.", "quantifier": "all value lists and all contiguous increasing bins", "why_tests_cant": "Off-by-one at edges for arbitrary bin edges.", "anchors": ["clustertools/util/recipes.py:bin_index"]}
{"id": "C25", "title": "Equal-number binning loses no element", "statement": "nbinmaker's bins are contiguous, cover min..max, are strictly increasing, its histogram sums to the number of inputs, its bin sums add up to the total, and every returned mean lies inside its bin.", "quantifier": "all non-empty inputs (ties included) and all nbin>=1", "why_tests_cant": "Ties and nbin>len(x) produce degenerate bins for particular inputs only.", "anchors": ["clustertools/util/recipes.py:nbinmaker"]}
{"id": "C26", "title": "Equal-width binning partitions the data", "statement": "binmaker's histogram counts every input exactly once and its bin sums add up to the total.", "quantifier": "all inputs with min<max, all nbin>=1 (linear steps)", "why_tests_cant": "Edge values must be counted exactly once for all data.", "anchors": ["clustertools/util/recipes.py:binmaker"]}
{"id": "C27", "title": "Running bins count what they claim", "statement": "roaming_binmaker and roaming_nbinmaker return for every bin the number and sum of exactly the inputs in [lower,upper) (last bin closed).", "quantifier": "all inputs and parameters", "why_tests_cant": "For all data.", "anchors": ["clustertools/util/recipes.py:roaming_binmaker", "clustertools/util/recipes.py:roaming_nbinmaker"]}
{"id": "C28", "title": "Binned means are means", "statement": "mean_prof reports for each non-empty bin the mean of y over exactly the elements whose x falls in that bin; the count-weighted average of the reported values is the overall mean.", "quantifier": "all x,y of equal length, all bins", "why_tests_cant": "For all data.", "anchors": ["clustertools/util/recipes.py:mean_prof"]}
{"id": "C29", "title": "Linear interpolation", "statement": "interpolate passes through both given points, and interpolating for y and then back for x returns the starting x.", "quantifier": "all pairs of points with distinct x and distinct y", "why_tests_cant": "For all reals.", "anchors": ["clustertools/util/recipes.py:interpolate"]}
{"id": "C30", "title": "Nearest-neighbour distances", "statement": "minimum_distance returns, for each point, the minimum distance to any other point.", "quantifier": "all lists of at least two points", "why_tests_cant": "In-place double loop correct for every size.", "anchors": ["clustertools/util/recipes.py:minimum_distance", "clustertools/util/recipes.py:distance"]}
{"id": "C31", "title": "Power-law samples stay in range", "statement": "power_law_distribution_function returns values within [xmin,xmax] for every random draw and slope.", "quantifier": "all 0<xmin<=xmax, all slopes, all uniform draws", "why_tests_cant": "For all random draws.", "anchors": ["clustertools/util/recipes.py:power_law_distribution_function"]}
{"id": "C32", "title": "Spherical and cylindrical coordinates round-trip", "statement": "sphere_to_cart inverts cart_to_sphere and cyl_to_cart inverts cart_to_cyl for positions and velocities, and the speed is preserved.", "quantifier": "all points off the polar axis and all velocities", "why_tests_cant": "For all reals.", "anchors": ["clustertools/util/coordinates.py:cart_to_sphere", "clustertools/util/coordinates.py:sphere_to_cart", "clustertools/util/coordinates.py:cart_to_cyl", "clustertools/util/coordinates.py:cyl_to_cart"]}
{"id": "C33", "title": "Potential energy is the pairwise sum", "statement": "The full and partial potential-energy kernels give each selected star -G*sum of m_i m_j / sqrt(r_ij^2 + softening) over all other stars; the total potential energy counts each pair once.", "quantifier": "all star lists with distinct positions", "why_tests_cant": "Loop with symmetric updates must be right for every size.", "anchors": ["clustertools/analysis/functions.py:_potential_energy", "clustertools/analysis/functions.py:_potential_energy_subset", "clustertools/cluster/cluster.py:StarCluster.add_energies"]}
{"id": "C34", "title": "virialize reaches the requested virial ratio", "statement": "After virialize(qvir) the recomputed virial ratio (kinetic/potential) of the cluster equals the requested value.", "quantifier": "all bound clusters with non-zero kinetic energy", "why_tests_cant": "For all data.", "anchors": ["clustertools/cluster/operations.py:virialize", "clustertools/cluster/cluster.py:StarCluster.virialize"]}
{"id": "C35", "title": "Centre of mass", "statement": "find_centre_of_mass returns the mass-weighted mean of positions and velocities; it is equivariant under translations and boosts and independent of star order.", "quantifier": "all non-empty star lists with non-zero total mass", "why_tests_cant": "For all data.", "anchors": ["clustertools/analysis/functions.py:find_centre_of_mass"]}
{"id": "C36", "title": "Iterative centre finding terminates", "statement": "find_centre (sigma-clipping loop) and the density-based centre loops terminate for every cluster.", "quantifier": "all finite clusters and parameters", "why_tests_cant": "Non-termination occurs only for special configurations.", "anchors": ["clustertools/analysis/functions.py:find_centre", "clustertools/analysis/functions.py:find_centre_of_density"]}
{"id": "C37", "title": "Mass profile adds up", "statement": "m_prof's bins hold exactly the mass of the selected stars; the cumulative profile is non-decreasing and ends at the total selected mass.", "quantifier": "all clusters and selections", "why_tests_cant": "For all data.", "anchors": ["clustertools/analysis/profiles.py:m_prof"]}
{"id": "C38", "title": "Unit helper functions agree with cluster conversion", "statement": "Converting a length, velocity, time or mass with the _convert_* helpers gives the same number as converting the cluster itself.", "quantifier": "all values, all pairs of units", "why_tests_cant": "64 pairs per helper.", "anchors": ["clustertools/util/units.py"]}
{"id": "C39", "title": "Snapshot counter and file resolution when advancing", "statement": "advance_cluster loads snapshot nsnap+1 and a chain of k advances from nsnap=n loads n+1,...,n+k in order. (Options that are not remembered, and restarted runs: see C68.)", "quantifier": "all chains of advances", "why_tests_cant": "Unbounded chains.", "anchors": ["clustertools/io/load.py:advance_cluster", "clustertools/io/load.py:_get_advanced_kwargs"]}
{"id": "C40", "title": "Snapshot column mapping", "statement": "Loading a snapshot with explicit column names and numbers assigns each named quantity from its column for every permutation of columns.", "quantifier": "all column permutations and tables", "why_tests_cant": "Combinatorially many layouts.", "anchors": ["clustertools/io/snapshot.py:_get_snapshot"]}
{"id": "C41", "title": "Binary NBODY6 snapshots decode what was encoded", "statement": "Reading an OUT3 binary snapshot record returns exactly the masses, positions, velocities, ids and header values stored, and consumes exactly one record so that repeated reads yield successive snapshots. (Which snapshot load_cluster selects: see C69.)", "quantifier": "all records, all concatenations", "why_tests_cant": "All byte contents.", "anchors": ["clustertools/io/nbody6.py:_get_nbody6_out3"]}
{"id": "C42", "title": "Saved snapshots reload unchanged", "statement": "Writing a cluster with snapout and loading the file restores mass, position, velocity and id columns of every star in order.", "quantifier": "all clusters", "why_tests_cant": "All contents.", "anchors": ["clustertools/util/output.py:snapout"]}
{"id": "C43", "title": "Matching to an orbital path", "statement": "orbital_path_match assigns each star to the path point nearest to it: the reported time is that point's, the reported distance is (up to sign, negative below the orbital plane) the minimum over all path points of their distance to the star in the cluster's units, the distance along the path is the length of the path between that point and the cluster, with to_path the distance is that to the line along the path, the path covers tfinal in the cluster's units both ways, and the cluster is left unchanged.", "quantifier": "all clusters in any linear units and origin, all paths, all potentials", "why_tests_cant": "Nearest-point and length claims quantify over all paths and star positions, and over all unit and origin combinations.", "anchors": ["clustertools/analysis/orbits.py:orbital_path_match"]}
{"id": "C44", "title": "Tidal radius iteration", "statement": "The iterated tidal radius uses only mass enclosed within the previous estimate, never increases, and stops.", "quantifier": "all clusters, selections, iteration limits, convergence factors and potentials", "why_tests_cant": "The iteration depends on all masses and radii; termination and monotonicity are statements about unboundedly many iterations.", "anchors": ["clustertools/analysis/functions.py:rtidal"]}
{"id": "C45", "title": "Virial radius is the harmonic mean separation", "statement": "virial_radius(method='inverse_distance') returns M^2/(2*sum over pairs of m_i*m_j/r_ij), whichever of the two implementations (full / list) is used, and its physical value does not depend on the cluster's units or origin.", "quantifier": "every cluster with pairwise distinct positions, every number of stars, all units and origins", "why_tests_cant": "The double loop, its partial sums and the unit independence must hold for any number of stars.", "anchors": ["clustertools/analysis/functions.py:virial_radius_inverse_distance", "clustertools/analysis/functions.py:virial_radius"]}
{"id": "C46", "title": "reset_nbody_scale gives physical scales", "statement": "reset_nbody_scale sets the N-body mass and length scales to the physical total mass and virial radius, leaves the stars unchanged and does not change the physical cluster.", "quantifier": "every cluster in every unit system", "why_tests_cant": "Depends on the unit system in which it is called.", "anchors": ["clustertools/cluster/operations.py:reset_nbody_scale"]}
{"id": "C47", "title": "Equal-number binning gives equal numbers", "statement": "nbinmaker on n pairwise different values with at least two values per requested bin returns exactly the requested number of bins, and every reported count is within one of n/nbin.", "quantifier": "all finite lists of pairwise different numbers and all bin counts nbin with 2*nbin <= n", "why_tests_cant": "the cut positions depend on the integer truncation of i*n/nbin for every n and nbin", "anchors": ["clustertools/util/recipes.py:nbinmaker"]}
{"id": "C48", "title": "Smoothing reports the statistics of its bins", "statement": "smooth(x,y,dx) reports one row per non-empty bin: the mean (or median), standard deviation, minimum and maximum of y over exactly the elements whose x falls in the bin; the smoothed value always lies between the reported minimum and maximum.", "quantifier": "all x with range at least dx, all y of the same length, all dx > 0, both bin types, mean and median", "why_tests_cant": "the set of empty and dropped bins depends on the data", "anchors": ["clustertools/util/recipes.py:smooth"]}
{"id": "C49", "title": "Parallel potential energies do not depend on thread scheduling", "statement": "The parallel potential-energy kernels return the same value for every star as the serial ones, whatever the interleaving of the worker threads' loads and stores.", "quantifier": "all star lists, softenings and all complete interleavings of the workers", "why_tests_cant": "a race shows only under rare schedules; the number of interleavings is unbounded", "anchors": ["clustertools/analysis/functions.py:_potential_energy_parallel", "clustertools/analysis/functions.py:_potential_energy_subset_parallel"]}
{"id": "C50", "title": "A found centre becomes the origin of to_centre", "statement": "After find_centre, find_centre_of_density or find_centre_of_mass has stored its result, to_centre gives the rows of all stars relative to that centre: after find_centre_of_mass the mass-weighted sums of positions and velocities vanish. This holds from origin 'cluster' and from origin 'galaxy', with or without reset_centre, whatever centre and orbit were stored before.", "quantifier": "all clusters with origin cluster or galaxy in linear units, all stored centres and orbit positions, both values of reset_centre", "why_tests_cant": "depends on the combination of previously stored centre, orbit position, origin and the found value", "anchors": ["clustertools/cluster/cluster.py:StarCluster._set_centre", "clustertools/cluster/cluster.py:StarCluster.find_centre_of_mass", "clustertools/cluster/operations.py:to_centre"]}
{"id": "C51", "title": "Density profile integrates to the mass", "statement": "rho_prof reports for every radial bin a density that, multiplied by the volume of the spherical shell (or the area of the ring when projected), is exactly the mass of the selected stars whose distance from the cluster centre lies in the bin; density times volume adds up to the selected mass, the counts are the numbers of those stars, and the caller's cluster is left as it was.", "quantifier": "all clusters in linear units with any linear origin, all filters and masks, all bin choices that cover the selected radii, projected or not", "why_tests_cant": "bins are made from the data; ties, edges and the last closed bin depend on the values", "anchors": ["clustertools/analysis/profiles.py:rho_prof", "clustertools/analysis/profiles.py:m_prof"]}
{"id": "C52", "title": "Velocity profiles report the statistics of their bins", "statement": "sigv_prof, v_prof, v2_prof and beta_prof report, for every radial bin with more than three selected stars, the standard deviation, mean, mean square or anisotropy of the requested velocity component over exactly the selected stars in the bin, and zero for the other bins, for every documented value of coord, and leave the caller's cluster as it was.", "quantifier": "all clusters in linear units with any linear origin, all filters, masks, bins and documented velocity components", "why_tests_cant": "depends on which stars fall in which data-dependent bin and on every combination of coordinate, projection and origin", "anchors": ["clustertools/analysis/profiles.py:sigv_prof", "clustertools/analysis/profiles.py:v_prof", "clustertools/analysis/profiles.py:v2_prof", "clustertools/analysis/profiles.py:beta_prof"]}
{"id": "C53", "title": "A profile call leaves the caller's arguments alone", "statement": "Calling a profile function with a boolean mask and with precomputed bins changes neither the mask nor the bins: a second call with the same arguments on the same cluster returns the same result.", "quantifier": "all clusters, filters, masks and bins", "why_tests_cant": "the aliasing only shows for particular combinations of filter, mask, bins and normalize", "anchors": ["clustertools/analysis/profiles.py:rho_prof", "clustertools/analysis/profiles.py:m_prof", "clustertools/cluster/cluster.py:StarCluster.subset"]}
{"id": "C54", "title": "Normalised profile radii are in units of the half-mass radius", "statement": "With normalize=True the reported radii are the bin radii divided by the cluster's half-mass radius (the projected one for projected profiles), whether or not the profile is also plotted and whatever the origin of the caller's cluster.", "quantifier": "all clusters, origins, projections and bins", "why_tests_cant": "the radius used is whatever is stored at that point of the save/convert/restore history", "anchors": ["clustertools/analysis/profiles.py:rho_prof", "clustertools/analysis/profiles.py:m_prof", "clustertools/analysis/profiles.py:sigv_prof"]}
{"id": "C55", "title": "Circular velocity profile", "statement": "vcirc_prof reports at each radius r the circular velocity sqrt(G M(r)/r) of the mass of the selected stars within r, for stars at every origin and for every filter and mask.", "quantifier": "all clusters, filters, masks, bins and origins", "why_tests_cant": "depends on the stored radial order, which is a product of the whole call history", "anchors": ["clustertools/analysis/profiles.py:vcirc_prof"]}
{"id": "C56", "title": "add_orbit converts to the cluster's units", "statement": "add_orbit with a position, velocity and time given in ounits stores in the cluster the physically same position, velocity and time expressed in the cluster's own units, and changes nothing else; for sky coordinates it fills only the coordinates that are missing for all stars.", "quantifier": "all positions, velocities, times, source units, target units, N-body scales and galpy scales", "why_tests_cant": "There are dozens of (source, target) pairs with real-valued scales; a test samples a few.", "anchors": ["clustertools/cluster/cluster.py:StarCluster.add_orbit", "clustertools/io/orbit.py:_get_cluster_orbit"]}
{"id": "C57", "title": "NBODY6 scales for binaries are consistent", "statement": "After add_nbody6 the cluster carries exactly the length, mass, velocity and time scales and the centre it was given; rbar_au and rbar_su are rbar parsecs in astronomical units and in solar radii, and tbar_days is the period, by Kepler's third law, of an orbit of size rbar around the mass zmbar.", "quantifier": "all positive length and mass scales, all other header values, all clusters", "why_tests_cant": "The relations are identities between powers, square roots and pi over all real scales; floating-point samples cannot establish them.", "anchors": ["clustertools/cluster/cluster.py:StarCluster.add_nbody6"]}
{"id": "C58", "title": "Stellar evolution arrays have one entry per star", "statement": "Loading the stellar evolution of an NBODY6 snapshot gives every star exactly one stellar type, one luminosity and one radius: first the binaries (their common type, summed luminosity and larger radius) and then the single stars, in file order.", "quantifier": "all numbers of binaries and single stars and all values in fort.82 and fort.83", "why_tests_cant": "Array lengths depend on the number of binaries; a test with zero or one binary passes although larger numbers break the alignment.", "anchors": ["clustertools/io/nbody6.py:_get_nbody6se", "clustertools/cluster/cluster.py:StarCluster.add_sse"]}
{"id": "C59", "title": "The orbital path is the cluster's orbit", "statement": "orbital_path returns nt points at equal intervals of time from -tfinal to tfinal (in the cluster's units), each the phase-space position, in the cluster's units, to which the cluster's galactocentric position (or that of its centre) moves in that time in the given potential; with skypath the sky coordinates of the same points. The cluster is left unchanged.", "quantifier": "all clusters in linear units and any origin, all potentials, all tfinal and nt", "why_tests_cant": "Ranges over all potentials, times and unit systems.", "anchors": ["clustertools/analysis/orbits.py:orbital_path", "clustertools/analysis/orbits.py:initialize_orbit"]}
{"id": "C60", "title": "The tail path is the mean of the stars along the orbit", "statement": "tail_path matches every star to the nearest point of the cluster's orbit between -tfinal and tfinal, divides these times into bins (equal width, or equal numbers of orbit points; with ntail > nt overlapping roaming windows), and returns for every bin that holds stars (within dmax of the orbit) the bin's time and the mean galactocentric position and velocity of its stars, in the cluster's units. Every such star is counted, and counted once if bins do not overlap. The cluster is left unchanged.", "quantifier": "all clusters in linear units and any origin, all potentials, all tfinal, numbers of bins and dmax", "why_tests_cant": "Ranges over all star positions, potentials, bin counts and unit systems.", "anchors": ["clustertools/tidaltail/tails.py:tail_path"]}
{"id": "C61", "title": "to_tail is a rotation that puts the orbital velocity on the x axis", "statement": "to_tail returns every star's position and velocity relative to the cluster centre in a rotated frame: all lengths, speeds, angles and the handedness are preserved, and the first coordinate is the component along the cluster's orbital velocity. The cluster is left unchanged.", "quantifier": "all clusters in linear units and any origin with a non-zero orbital velocity", "why_tests_cant": "Invariance must hold for every star and every direction of motion; a transposed matrix passes for special directions.", "anchors": ["clustertools/tidaltail/tails.py:to_tail"]}
{"id": "C62", "title": "tail_path_match matches stars to the tail path", "statement": "tail_path_match without a path matches every star to the nearest entry of the cluster's tail path and reports its time and the star's distance from it, in the cluster's units.", "quantifier": "all clusters in linear units, all potentials and arguments", "why_tests_cant": "Two functions with different unit conventions are composed; errors show only in some unit systems.", "anchors": ["clustertools/tidaltail/tails.py:tail_path_match", "clustertools/tidaltail/tails.py:tail_path"]}
{"id": "C63", "title": "Sky-plane coordinates are relative to the chosen reference with the chosen method", "statement": "In radec units to_cluster (to_centre) with a centre method gives every star's offset and relative motion from the cluster's orbit position (centre) by that method: it depends only on the method, not on earlier calls, and a star that sits at the reference point and moves with it gets zero coordinates and zero motion.", "quantifier": "every radec cluster, every sequence of recentrings, all three methods, both reference points", "why_tests_cant": "depends on the history of earlier recentrings and on all coordinates", "anchors": ["clustertools/cluster/operations.py:to_sky", "clustertools/cluster/operations.py:to_cluster", "clustertools/cluster/operations.py:to_centre"]}
{"id": "C64", "title": "Order-dependent quantities are right with sorting off and in projection", "statement": "The stored projected order is sorted by the current projected radii, r10/rm are the mass radii also after conversions with sortstars=False, and projected Lagrange radii enclose their fraction of the mass.", "quantifier": "every cluster and every finite sequence of conversions, both sorting flags", "why_tests_cant": "a stale order gives a plausible number; which histories leave one stale cannot be enumerated by tests", "anchors": ["clustertools/cluster/cluster.py:StarCluster.sortstars", "clustertools/cluster/cluster.py:StarCluster.analyze"]}
{"id": "C65", "title": "Well-formed calls of add_stars succeed", "statement": "add_stars with per-star arrays of equal length (or scalars) does not raise, with default options and with nb binaries among the stars, and all per-star arrays of the result have equal length; with binaries, the first stars of the result represent the pairs and the old and single stars follow unchanged.", "quantifier": "every cluster, every sequence of well-formed calls, any number of binaries", "why_tests_cant": "failure depends on the sizes added by earlier calls", "anchors": ["clustertools/cluster/cluster.py:StarCluster.add_stars"]}
{"id": "C66", "title": "Coordinate functions work for every cluster", "statement": "sphere_coords and cyl_coords return the coordinates of every star of the cluster in order, whatever its origin, and leave the cluster as it was.", "quantifier": "all clusters, all origins", "why_tests_cant": "universally quantified over clusters and origins", "anchors": ["clustertools/util/coordinates.py:cart_to_sphere", "clustertools/util/coordinates.py:sphere_to_cart", "clustertools/util/coordinates.py:cart_to_cyl", "clustertools/util/coordinates.py:cyl_to_cart"]}
{"id": "C67", "title": "Centre finders", "statement": "find_centre, with either method and any selection, returns the centre its iteration defines for the selected stars and leaves the cluster in its units and origin; the density-based centres are equivariant under translations and boosts (and independent of the order of the stars).", "quantifier": "all clusters, selections and parameters", "why_tests_cant": "equivariance and restoration range over all clusters, displacements and selections", "anchors": ["clustertools/analysis/functions.py:find_centre_of_mass"]}
{"id": "C68", "title": "Advancing keeps the options the cluster was loaded with", "statement": "advance_cluster reads the next snapshot with the column layout, units and origin of the cluster that is advanced, also when the next snapshot is found in the directory cont/ of a restarted run, with or without an orbit file.", "quantifier": "all clusters, layouts and histories of advances", "why_tests_cant": "depends on the whole history of load options and files", "anchors": ["clustertools/io/load.py:advance_cluster", "clustertools/io/load.py:_get_advanced_kwargs"]}
{"id": "C69", "title": "The requested NBODY6 snapshot is read, and the end is recognised", "statement": "load_cluster(ctype='nbody6', nsnap=n) returns the stars and the orbital position of snapshot n; advancing past the last snapshot returns an empty cluster, with or without an orbit file.", "quantifier": "all files, numbers of snapshots and orbit files", "why_tests_cant": "ranges over all files and positions in them", "anchors": ["clustertools/io/nbody6.py:_get_nbody6_out3"]}
{"id": "C70", "title": "add_rotation only turns the sense of rotation", "statement": "On a cluster given from its position or centre, add_rotation(qrot) keeps every star's position, speed and motion away from the z axis; of a fraction qrot of the stars, chosen at random, it makes the angular momentum about the cluster's z axis positive; everything else (masses, labels, centre, orbit position, time, units, origin) is unchanged, and the derived radii and speeds are right.", "quantifier": "all clusters, origins, units, fractions and sequences of random numbers", "why_tests_cant": "ranges over all clusters and random sequences; the origin matters", "anchors": ["clustertools/cluster/operations.py:add_rotation", "clustertools/cluster/cluster.py:StarCluster.add_rotation"]}
{"id": "C71", "title": "Relaxation times", "statement": "half_mass_relaxation_time(coulomb) and relaxation_time() return Spitzer's relaxation time computed from the physical masses, the three-dimensional half-mass radius and (local time) the mean square speed and the density within the half-mass radius, in the cluster's unit of time; the value does not depend on the units or the origin of the cluster, and the cluster is left as it was.", "quantifier": "all clusters, units, origins, Coulomb factors and radii", "why_tests_cant": "the value must be right for all clusters in all units; signs and stale orders show only for some of them", "anchors": ["clustertools/analysis/functions.py:half_mass_relaxation_time", "clustertools/analysis/functions.py:relaxation_time"]}
{"id": "C72", "title": "Relaxation times: sign, projection, given radius", "statement": "Relaxation times are positive, and relaxation_time(rad) and the projected variants return Spitzer's time for the given radius or for the half-mass radius seen in projection.", "quantifier": "all clusters, units, origins, Coulomb factors and radii", "why_tests_cant": "signs and stale projected orders show only for some clusters and histories", "anchors": ["clustertools/analysis/functions.py:half_mass_relaxation_time", "clustertools/analysis/functions.py:relaxation_time"]}
{"id": "C73", "title": "add_rotation for galactocentric clusters", "statement": "add_rotation changes only velocities, also for a cluster given from the galactic centre.", "quantifier": "all clusters, origins, units, fractions and sequences of random numbers", "why_tests_cant": "ranges over all clusters and random sequences; the origin matters", "anchors": ["clustertools/cluster/operations.py:add_rotation", "clustertools/cluster/cluster.py:StarCluster.add_rotation"]}
{"id": "C74", "title": "Closest star", "statement": "For two or more stars, closest_star gives for every star the distance to the nearest other star in the cluster's length unit, the same physical distance whatever the units and origin, and an index of a star at that distance, another star whenever no two stars are at the same place.", "quantifier": "all clusters with linear units and origin, in space or projection, and all answers a KD-tree may give (ties)", "why_tests_cant": "ranges over all clusters, units, origins and tie-breaks of the tree", "anchors": ["clustertools/analysis/functions.py:closest_star", "clustertools/cluster/cluster.py:StarCluster.closest_star"]}
{"id": "C75", "title": "Closest star: sky coordinates, coincident stars", "statement": "closest_star answers for every cluster, also on the sky, and never names a star as its own closest star.", "quantifier": "all clusters, units and origins", "why_tests_cant": "ranges over all clusters; coincident stars are rare", "anchors": ["clustertools/analysis/functions.py:closest_star", "clustertools/cluster/cluster.py:StarCluster.closest_star"]}
{"id": "C76", "title": "Core radius and core relaxation time", "statement": "With a known centre, rcore is the density-weighted core radius of Casertano and Hut about that centre, the same physical length whatever the units and origin, between the smallest and largest distance of a star from the centre; core_relaxation_time is 0.39/ln(γN)·sqrt(rc³/GM)·N·sqrt(rc rh)/(rc+rh); both leave the cluster as it was.", "quantifier": "all clusters with a known centre, units, origins, numbers of neighbours, in space or projection, and all valid KD-tree answers", "why_tests_cant": "ranges over all clusters, units, origins and tie-breaks", "anchors": ["clustertools/analysis/functions.py:rcore", "clustertools/analysis/functions.py:core_relaxation_time", "clustertools/cluster/cluster.py:StarCluster.rcore"]}
{"id": "C77", "title": "rcore leaves the cluster as it was", "statement": "rcore returns the cluster in the state it was given, whatever its centre.", "quantifier": "all clusters, units and origins", "why_tests_cant": "the state before and after must agree for every cluster and history", "anchors": ["clustertools/analysis/functions.py:rcore"]}
{"id": "C78", "title": "Histograms and number densities", "statement": "x_hist and dx_function count every value exactly once in contiguous bins from the smallest to the largest value (or in the caller's bins when these hold all values); dx_function divides the numbers by the widths, leaves empty bins out and returns the unique least-squares line of log10(dN/dx) against log10(mean) with its standard errors; a power law is recovered exactly and the slope does not depend on the unit of the values. (Violated: values outside the caller's bins are counted in the edge bins; fewer than three bins and constant data fail.)", "quantifier": "all lists of values, bin numbers, bin types and caller's bins", "why_tests_cant": "must hold for all data, ties, numbers of bins and units; least squares is a statement over all lines", "anchors": ["clustertools/util/recipes.py:x_hist", "clustertools/util/recipes.py:dx_function"]}
{"id": "C79", "title": "Mass functions", "statement": "mass_function of the selected stars (mask, radius, mass, velocity, energy, type and population filters) returns contiguous mass bins from the smallest to the largest selected mass, the number of selected stars per bin (adding up to all), dN/dm as the completeness-weighted number over the bin width, and the unique least-squares line in log-log with its standard errors; with enough distinct masses every equal-number bin holds N/nmass stars up to one; slope, numbers and errors do not depend on the units of the cluster; too few stars give zeros and -1000; the cluster is left as it was; the method returns the slope.", "quantifier": "all clusters, units, origins, filters, masks, completeness corrections and numbers of bins", "why_tests_cant": "ranges over all clusters, filters and unit systems", "anchors": ["clustertools/analysis/functions.py:mass_function", "clustertools/cluster/cluster.py:StarCluster.mass_function"]}
{"id": "C80", "title": "mass_function exists whenever stars are selected", "statement": "mass_function returns a slope for every selection of at least nmass stars, and the method accepts the same arguments. Violated: an empty equal-width bin, one or two bins, equal masses, and mcorr in the method all raise.", "quantifier": "all clusters, selections and numbers of bins", "why_tests_cant": "must hold for every selection", "anchors": ["clustertools/analysis/functions.py:mass_function", "clustertools/cluster/cluster.py:StarCluster.mass_function"]}
{"id": "C81", "title": "Radius of a given overdensity", "statement": "virial_radius_critical_density of a cluster whose mean density (mass within a star's radius over the volume of the sphere) decreases outwards leaves the cluster as it was and returns the radius at which the mean density passes overdens times 3H^2/(8 pi G), interpolated linearly between the two neighbouring stars that enclose it, whenever the star with the nearest mean density is neither the innermost nor the outermost, and otherwise that star's radius; the physical length does not depend on the units or origin the cluster is given in.", "quantifier": "all clusters with different star radii, units, origins, H and overdensities", "why_tests_cant": "ranges over all clusters and unit systems", "anchors": ["clustertools/analysis/functions.py:virial_radius_critical_density"]}
{"id": "C82", "title": "The overdensity radius is where the density is reached", "statement": "Whenever the mean density passes overdens times the critical density between two neighbouring stars, virial_radius_critical_density returns a radius between two such stars. Violated: between the two innermost (or outermost) stars the radius of the nearer-in-density one is returned, and where the mean density rises outwards the line is extended to a radius where the density is not reached.", "quantifier": "all clusters, H and overdensities", "why_tests_cant": "must hold for every mass distribution", "anchors": ["clustertools/analysis/functions.py:virial_radius_critical_density"]}
{"id": "C83", "title": "Limiting radius", "statement": "rlimiting returns, in the length unit of the cluster, the radius at which the density profile of the cluster (nrad bins with equal numbers of stars, from its position or centre) first falls to the density of the galaxy at the cluster (times 4/3 of the radius of the last bin in projection), interpolated linearly between neighbouring bins; the radius of the last bin if even that is denser, and zero if the first is less dense. The cluster comes back as it was, and the physical radius is the same in all units and origins. If the last bin has exactly the background density and none is below it, IndexError is raised.", "quantifier": "all clusters, units, origins, galaxy densities, positions rgc/zgc, numbers of bins, projected or not", "why_tests_cant": "ranges over all clusters, potentials and unit systems", "anchors": ["clustertools/analysis/functions.py:rlimiting", "clustertools/analysis/functions.py:_rho_prof", "clustertools/util/recipes.py:nbinmaker"]}
{"id": "C84", "title": "Core radius from the central density", "statement": "rcore with a method other than 'casertano', of a cluster given from its centre or with a known centre: if the density profile with ceil(1/mfrac) equal-number bins stays below a third (projected: half) of the central density once it is below, and somewhere is, the returned length is the radius at which it falls to that density, interpolated between neighbouring bins; the cluster comes back as it was; whatever the profile, the physical length does not depend on the units and origin the cluster is given in.", "quantifier": "all clusters, units, origins, mass fractions 0 < mfrac <= 1, projected or not", "why_tests_cant": "ranges over all clusters and unit systems", "anchors": ["clustertools/analysis/functions.py:rcore", "clustertools/analysis/functions.py:_rho_prof"]}
{"id": "C85", "title": "A core radius is where the density falls to the core density", "statement": "rcore with a method other than 'casertano' returns, for every cluster and mass fraction, the radius at which the density profile first falls to a third (projected: half) of the central density. Violated: when no bin is below, and always for mfrac=1, an IndexError is raised; when the profile rises above the core density again, the radius returned lies beyond the first bin that is below.", "quantifier": "all clusters and mass fractions", "why_tests_cant": "must hold for every mass distribution", "anchors": ["clustertools/analysis/functions.py:rcore"]}
{"id": "C86", "title": "Moving the cluster along its orbit", "statement": "interpolate_orbit returns, in the cluster's units, where the cluster's galactocentric position (function: or that of its centre, with from_centre) is after the given time, 12 Gyr by default; the function leaves the cluster as it was; the method (without from_centre) moves the cluster there together with its stars and changes nothing else that is physical: time, masses and the positions of stars and centre relative to the cluster stay, as do units and origin, and derived quantities are up to date. Velocities are right in all linear units except pc/Myr, kpc/Gyr and WD units.", "quantifier": "all clusters, linear units, origins, potentials (flows), times of integration, at least two time steps; a time must be given in AMUSE units", "why_tests_cant": "ranges over all clusters, potentials, times and frames", "anchors": ["clustertools/analysis/orbits.py:interpolate_orbit", "clustertools/analysis/orbits.py:_integrate_orbit", "clustertools/cluster/cluster.py:StarCluster.interpolate_orbit"]}
{"id": "C87", "title": "interpolate_orbit moves what it follows, in all units", "statement": "interpolate_orbit with from_centre=True moves the cluster so that its centre is where the centre's orbit ends; velocities are right in all units; the default time works in all units. Violated: the end of the centre's orbit becomes the position of the cluster, so its centre ends one offset away (even for no time at all); in pc/Myr and kpc/Gyr the velocity is too small by 1.0227...; in AMUSE units the default time raises AttributeError.", "quantifier": "all clusters, potentials and times", "why_tests_cant": "must hold for all clusters and units", "anchors": ["clustertools/analysis/orbits.py:interpolate_orbit", "clustertools/analysis/orbits.py:_integrate_orbit", "clustertools/cluster/cluster.py:StarCluster.interpolate_orbit"]}
{"id": "C88", "title": "Moving the stars along their orbits", "statement": "interpolate_orbits returns each star's row, in the frame and units of the cluster, followed for the given time in the potential and the function leaves the cluster as it was. With the origin at the galaxy the method moves every star and the cluster to where their own galactocentric orbits end; time, masses, units, origin and the centre's offset stay and the derived radii are those of the new positions. Velocities as in C86.", "quantifier": "all clusters, linear units, potentials, times of integration, at least two time steps", "why_tests_cant": "ranges over all clusters, potentials, times", "anchors": ["clustertools/analysis/orbits.py:interpolate_orbits", "clustertools/analysis/orbits.py:initialize_orbits", "clustertools/cluster/cluster.py:StarCluster.interpolate_orbits"]}
{"id": "C89", "title": "After interpolate_orbits the cluster is consistent", "statement": "After interpolate_orbits the derived radii and the stored radial order describe the moved stars, in every frame, and the default time works in all units. Violated: with the origin at the cluster or its centre nothing is analysed, so radii, speeds and mean quantities are those of the old positions; with the origin at the galaxy the stored radial order is that of the old positions (a concrete overtaking is shown); in AMUSE units the default time raises AttributeError.", "quantifier": "all clusters, frames, potentials, times", "why_tests_cant": "must hold for all clusters and histories", "anchors": ["clustertools/analysis/orbits.py:interpolate_orbits", "clustertools/analysis/orbits.py:initialize_orbits", "clustertools/cluster/cluster.py:StarCluster.interpolate_orbits"]}
{"id": "C90", "title": "The legacy names of orbit interpolation", "statement": "orbit_interpolate and orbits_interpolate, documented as the same as interpolate_orbit and interpolate_orbits, behave like them. Violated: for every cluster and all arguments the functions raise (TypeError for the keyword plot; NameError for cluster_pot) and the methods, which pass the cluster twice, raise TypeError.", "quantifier": "all clusters and arguments", "why_tests_cant": "for all arguments", "anchors": ["clustertools/analysis/orbits.py:orbit_interpolate", "clustertools/analysis/orbits.py:orbits_interpolate", "clustertools/cluster/cluster.py:StarCluster.orbit_interpolate", "clustertools/cluster/cluster.py:StarCluster.orbits_interpolate"]}
{"id": "C91", "title": "Velocity dispersion as a function of mass", "statement": "eta_function, for at least 2*nmass selected stars of different masses, returns the mean mass and the dispersion of the speeds in nmass mass bins holding equal numbers of the selected stars, and the slope and intercept of the least-squares line through their logarithms with their errors; stars with different masses and speeds (at least three bins) always get an answer, and bins differ by less than one star from equal numbers; a power law sigma ~ m^eta is recovered exactly; with fewer stars the answer is zeros with -1000 for the fit; the fitted slope does not depend on the units; the cluster is left as it was.", "quantifier": "all clusters, frames, linear units, selections and numbers of bins", "why_tests_cant": "ranges over all clusters, selections and bins", "anchors": ["clustertools/analysis/functions.py:eta_function", "clustertools/util/recipes.py:nbinmaker"]}
{"id": "C92", "title": "eta_function answers for any population", "statement": "eta_function returns a documented answer (a fit, or -1000 when there are too few stars) for any set of selected stars. Violated: selected stars of one mass make it fail with ValueError; one or two mass bins never give an answer; fewer different masses than bins give TypeError however many stars there are; stars of equal speed give no answer.", "quantifier": "all clusters and selections", "why_tests_cant": "for all clusters, selections and bins", "anchors": ["clustertools/analysis/functions.py:eta_function", "clustertools/util/recipes.py:nbinmaker"]}
{"id": "C93", "title": "The equipartition relation", "statement": "meq_func(m, meq, sigma0) is the relation of Bianchini et al. 2016: sigma(0)=sigma0; above meq stars are in equipartition (m sigma^2 constant); the two branches join smoothly (differentiable everywhere, sigma' = -sigma/(2 max(m, meq))); it is positive and strictly decreasing; it is covariant under changes of units.", "quantifier": "all masses, equipartition masses and dispersions", "why_tests_cant": "ranges over the reals", "anchors": ["clustertools/analysis/functions.py:meq_func"]}
{"id": "C94", "title": "Equipartition mass and kinematic concentration", "statement": "meq_function returns mean masses and dispersions of equal-number mass bins and the fit of the equipartition relation to them, bounded by the smallest and the largest mass in the cluster. ckin (cluster frame, 3D) returns the equipartition mass of the selected stars inside the half-mass radius over that of the selected stars between the 40% and 60% Lagrange radii. Both leave the cluster as it was.", "quantifier": "all clusters, linear units, selections with enough stars of different masses; the fit is any function of the data (scipy)", "why_tests_cant": "ranges over all clusters and selections", "anchors": ["clustertools/analysis/functions.py:meq_func", "clustertools/analysis/functions.py:meq_function", "clustertools/analysis/functions.py:ckin"]}
{"id": "C95", "title": "ckin signals that it has no answer, in every frame, and respects its arguments", "statement": "When there are too few stars ckin signals it as its parts do (-1000), it is the same in every frame and applies the selection it takes. Violated: with too few stars in both regions it returns 1 (-1000/-1000), a plausible value; with the origin at the galaxy stars are selected by galactocentric distance and the answer is 1 for every cluster further from the galactic centre than its own size; rmin and rmax have no effect.", "quantifier": "all clusters", "why_tests_cant": "for all clusters and arguments", "anchors": ["clustertools/analysis/functions.py:ckin", "clustertools/analysis/functions.py:meq_function", "clustertools/analysis/functions.py:eta_function"]}
{"id": "C96", "title": "The profile of the slope of the mass function", "statement": "alpha_prof divides the selected stars in radial bins and, in each bin with at least nmass stars on or before the main sequence and different masses, reports the slope (and its error) that mass_function has for the stars of that bin; the radii are the mean radii of the bins (the middles with fixed bins), over the half-mass radius when normalised; the gradient is the least-squares slope against ln(r/rm) when there are more than three bins, else the -100 sentinel. Stars of different masses always get an answer when no bin holds between nmass and 2*nmass stars. The cluster is left as it was.", "quantifier": "all clusters, frames, linear units, selections, masks, numbers and kinds of bins that cover the radii, mass corrections", "why_tests_cant": "ranges over all clusters, selections and bins", "anchors": ["clustertools/analysis/profiles.py:alpha_prof", "clustertools/analysis/functions.py:mass_function"]}
{"id": "C97", "title": "alpha_prof signals bins it cannot fit, and respects its arguments", "statement": "A radial bin without a mass function is signalled, the gradient is only of fitted bins, the selection of stellar types is applied and one bin cannot spoil the others. Violated: a bin with too few stars gets slope 0 and error 0, a flat mass function; when no bin could be fitted the gradient is 0 rather than the sentinel; stars selected with kwmin >= 2 give zeros everywhere (the mass functions always stop at kwmax=1); one bin of stars of one mass makes the whole profile fail.", "quantifier": "all clusters and arguments", "why_tests_cant": "for all clusters, selections and bins", "anchors": ["clustertools/analysis/profiles.py:alpha_prof", "clustertools/analysis/functions.py:mass_function"]}
{"id": "C98", "title": "Profiles of the slope of velocity dispersion and of the equipartition mass", "statement": "In three dimensions, without a mask, energy limits or a population (and without radius limits when bins are given), eta_prof and meq_prof report in each radial bin with at least 2*nmass stars of different masses the slope (equipartition mass) eta_function (meq_function) has for the selected stars between the edges of the bin; the radii are those of the bins, over the half-mass radius when normalised; the gradient is the least-squares slope against ln(r/rm). Stars of different masses and speeds always get an answer. The cluster is left as it was.", "quantifier": "all clusters, frames, linear units, selections, bins", "why_tests_cant": "ranges over all clusters, selections and bins", "anchors": ["clustertools/analysis/profiles.py:eta_prof", "clustertools/analysis/profiles.py:meq_prof", "clustertools/analysis/functions.py:eta_function", "clustertools/analysis/functions.py:meq_function"]}
{"id": "C99", "title": "eta_prof and meq_prof respect their arguments and signal bins they cannot fit", "statement": "Each entry is about the selected stars of its own bin and a bin without a fit is signalled. Violated: the entries ignore the mask, the energy limits and the population (with given bins the profile does not depend on them nor on the radius limits at all); projected profiles compare projected radii with edges of 3D radii; with equal-number bins the star at an inner edge is counted in both bins; a bin with too few stars gets 0; one bin of stars of one mass makes the whole profile fail.", "quantifier": "all clusters and arguments", "why_tests_cant": "for all clusters, selections and bins", "anchors": ["clustertools/analysis/profiles.py:eta_prof", "clustertools/analysis/profiles.py:meq_prof", "clustertools/analysis/functions.py:eta_function", "clustertools/analysis/functions.py:meq_function"]}
{"id": "C100", "title": "Reading a gyrfalcON/NEMO simulation snapshot by snapshot", "statement": "A file with the snapshots s0, ..., sn, each under a header of at most skiprows comment lines, is delivered by load_cluster(ctype='nemo') and k calls of advance_cluster as snapshot k: its masses, positions and velocities in the order of the file, its time, the stars numbered from 1, the label nsnap+k, the requested units and origin ('galaxy' or 'cluster'), and the columns named by give in that call; the call after the last snapshot returns a cluster without stars.", "quantifier": "all files, numbers of snapshots, numbers of stars in each, header lengths up to skiprows, units but radec, keyword arguments, centre finders; no orbit file", "why_tests_cant": "all lengths of history and all files", "anchors": ["clustertools/io/gyrfalcon.py:_get_gyrfalcon", "clustertools/io/load.py:load_cluster", "clustertools/io/load.py:advance_cluster", "clustertools/io/load.py:_get_advanced_kwargs", "clustertools/io/load.py:_get_filename"]}
{"id": "C101", "title": "Reading gyrfalcON output respects the orbit file, nsnap and give", "statement": "The cluster is put where the orbit file says it was at the time of its snapshot; nsnap selects the snapshot; give is remembered; each cluster can be advanced on its own. Violated: load_cluster ignores the orbit file and every later snapshot gets the position of the one before; nsnap only labels the first snapshot of the file; after give='mxve' an advanced cluster has no softening lengths; advancing the same cluster twice gives two different snapshots with the same label.", "quantifier": "all files, orbit files, arguments, numbers of calls", "why_tests_cant": "for all files and histories", "anchors": ["clustertools/io/gyrfalcon.py:_get_gyrfalcon", "clustertools/io/load.py:load_cluster", "clustertools/io/load.py:advance_cluster", "clustertools/io/load.py:_get_advanced_kwargs", "clustertools/io/load.py:_get_filename"]}
{"id": "C102", "title": "The faster gyrfalcON reader on regular files", "statement": "A file that begins with snapshots of the same number (at least two) of stars, headers of exactly skiprows lines and equal time steps is delivered by load_cluster(ctype='new_nemo') and k calls of advance_cluster as snapshot k: its stars, time, the label k, units, origin and extra columns.", "quantifier": "all regular files, numbers of stars and snapshots, header lengths, time steps, units but radec", "why_tests_cant": "all files and lengths of history", "anchors": ["clustertools/io/gyrfalcon.py:_get_new_gyrfalcon", "clustertools/io/load.py:load_cluster", "clustertools/io/load.py:advance_cluster", "clustertools/io/load.py:_get_advanced_kwargs"]}
{"id": "C103", "title": "The two gyrfalcON readers agree", "statement": "The faster reader delivers what the other one does. Violated: stars are numbered from 0 instead of 1; times are extrapolated from the first two snapshots; after the last snapshot there is an IndexError instead of a cluster without stars; a snapshot of one star is an IndexError; a snapshot with more stars than the first is cut; nsnap only labels the first snapshot.", "quantifier": "all files and histories", "why_tests_cant": "for all files and histories", "anchors": ["clustertools/io/gyrfalcon.py:_get_gyrfalcon", "clustertools/io/load.py:load_cluster", "clustertools/io/load.py:advance_cluster", "clustertools/io/load.py:_get_advanced_kwargs", "clustertools/io/load.py:_get_filename", "clustertools/io/gyrfalcon.py:_get_new_gyrfalcon"]}
{"id": "C104", "title": "A gyrfalcON simulation stopped while writing a header", "statement": "If a file ends inside the header of a snapshot (after any number of header lines smaller than skiprows), load_cluster and advance_cluster deliver all snapshots before it and the next advance_cluster returns a cluster without stars, as at a regular end.", "quantifier": "all files, numbers of snapshots and stars, crash points in the header, units but radec, centre finders", "why_tests_cant": "every crash point of every file", "anchors": ["clustertools/io/gyrfalcon.py:_get_gyrfalcon", "clustertools/io/load.py:load_cluster", "clustertools/io/load.py:advance_cluster"]}
{"id": "C105", "title": "A gyrfalcON simulation stopped while writing stars", "statement": "If a file ends inside the stars of a snapshot, the incomplete snapshot is treated as the end of the simulation (a cluster without stars). Violated: for every crash point between rows or in a row the advance that reaches it raises IndexError; the faster reader takes the j rows present for a complete cluster of j stars.", "quantifier": "all files, numbers of snapshots and stars, crash points in the rows", "why_tests_cant": "every crash point of every file", "anchors": ["clustertools/io/gyrfalcon.py:_get_gyrfalcon", "clustertools/io/load.py:load_cluster", "clustertools/io/load.py:advance_cluster", "clustertools/io/gyrfalcon.py:_get_new_gyrfalcon"]}
{"id": "C106", "title": "gyrout writes masses, positions and softening lengths", "statement": "gyrout writes one row for each star, in order: its mass in units of 222288.45... Msun, its galactocentric position in kpc, three velocities, and, if eps is a float or an array in epsunits (by default the units of the cluster), the softening length in kpc; the cluster is afterwards exactly as before.", "quantifier": "all clusters, units but radec, origins centre, cluster and galaxy, softening lengths", "why_tests_cant": "all combinations of units and origin and all clusters", "anchors": ["clustertools/util/output.py:gyrout", "clustertools/cluster/operations.py:to_galaxy", "clustertools/cluster/operations.py:to_kpckms", "clustertools/util/units.py:_convert_length"]}
{"id": "C107", "title": "gyrout writes velocities in kpc/Gyr and leaves its arguments alone", "statement": "The velocities written are those in kpc/Gyr (WD units); the caller's eps is not changed; an exception leaves the cluster as it was. Violated: velocities are multiplied by solar_vo/220 = 1.087; an array eps in pc is divided by 1000 in place, so that a second call writes values 1000 times too small; with a wrong number of softening lengths, or an integer in kpc, ValueError leaves the cluster galactocentric and in kpc.", "quantifier": "all clusters, units, origins, softening lengths", "why_tests_cant": "for all clusters", "anchors": ["clustertools/util/output.py:gyrout", "clustertools/util/units.py:_convert_length", "clustertools/util/constants.py:solar_vo"]}
{"id": "C108", "title": "fortout and sseout write what NBODY6 reads", "statement": "fortout writes wdir+filename with one row for each star: mass, position and velocity with respect to the centre in N-body units; with sse=True wdir+sse_filename has initial mass, type, mass in Msun, epoch and spin (sseout the same); with reset_nbody=True (units other than nbody) the masses written add up to 1 and their virial radius is 1, and the scales of the cluster fit the file; other files are unchanged; the cluster has the same numbers and describes the same stars.", "quantifier": "all clusters, units but radec, origins centre, cluster and galaxy, arguments", "why_tests_cant": "all clusters and combinations of units, origins and options", "anchors": ["clustertools/util/output.py:fortout", "clustertools/util/output.py:sseout", "clustertools/cluster/operations.py:reset_nbody_scale", "clustertools/cluster/operations.py:return_cluster"]}
{"id": "C109", "title": "fortout leaves the cluster and files as expected in all cases", "statement": "reset_nbody gives a standard file in all units; an exception leaves the cluster as it was; the file has the name given. Violated: in N-body units the file has the unscaled numbers and the cluster then describes other masses; without stellar evolution columns ValueError leaves the cluster in pc, km/s (and its centre frame); a name is always prefixed by wdir.", "quantifier": "all clusters, options", "why_tests_cant": "for all clusters", "anchors": ["clustertools/util/output.py:fortout", "clustertools/util/output.py:sseout", "clustertools/cluster/operations.py:reset_nbody_scale"]}
{"id": "C110", "title": "load_cluster(orbit=) puts the cluster on the orbit", "statement": "load_cluster(..., orbit=orb) of a cluster in pckms or nbody units with origin galaxy or cluster gives a cluster whose galactocentric position and velocity are those of the orbit at the cluster's physical time; units, origin, time, masses and stars are as loaded.", "quantifier": "all clusters, orbits (functions of time), both units and origins", "why_tests_cant": "for all orbits, clusters, scales", "anchors": ["clustertools/io/load.py:load_cluster", "clustertools/cluster/cluster.py:add_orbit"]}
{"id": "C111", "title": "An orbit argument is honoured in all units, on loading and advancing", "statement": "In any units, load_cluster(orbit=) and advance_cluster(orbit=) give the cluster the orbit's position at its time. Violated: load in kpckms raises NameError (t undefined); in galpy units the orbit is divided by 8 and 220 instead of ro, vo; in pcmyr, kpcgyr, amuse and WDunits the orbit is ignored; advance puts the kpc, km/s values unconverted into the cluster whatever its units, uses Myr for the time in Gyr of kpckms, and raises NameError in the other units.", "quantifier": "all clusters, orbits, units", "why_tests_cant": "for all clusters and orbits", "anchors": ["clustertools/io/load.py:load_cluster", "clustertools/io/load.py:advance_cluster", "clustertools/cluster/cluster.py:add_orbit"]}
{"id": "C112", "title": "NBODY6++ snapshots are read faithfully, snapshot after snapshot", "statement": "If files conf.3_n, n = n0, n0+d, n0+2d, ..., contain the snapshots of a run, then loading snapshot n0 with dtout=d and advancing k times gives snapshot n0+k*d: each binary (pair of consecutive components) is one star with the total mass and centre of mass and the id of the first component, the other stars follow in file order with position, velocity, mass and id; N-body scales and centre from the header; kinetic energies m v^2/2 and their sum; densities of single stars; the orbital position is line n0/d+k of the orbit file if there is one.", "quantifier": "all snapshots (any number of stars and binaries, any finite single-precision values), all k, d, directories", "why_tests_cant": "for all file contents and histories of advances", "anchors": ["clustertools/io/nbody6pp.py:_get_nbody6pp", "clustertools/io/nbody6pp.py:_get_nbody6pp_conf3", "clustertools/io/load.py:load_cluster", "clustertools/io/load.py:advance_cluster", "clustertools/cluster/cluster.py:add_stars"]}
{"id": "C113", "title": "NBODY6++ binaries, potentials, directories and damaged files are handled", "statement": "The cluster has the number of binaries and the potentials of the file; advancing looks in the directory the cluster was loaded from; damaged files are reported. Violated: nb is twice the number of binaries; potentials are read as integers (a negative potential above -2^28 becomes one below -8.3e8); snapdir is forgotten, so the advanced cluster is empty; a damaged header raises TypeError.", "quantifier": "all snapshots and directories", "why_tests_cant": "for all file contents", "anchors": ["clustertools/io/nbody6pp.py:_get_nbody6pp", "clustertools/io/nbody6pp.py:_get_nbody6pp_conf3", "clustertools/cluster/cluster.py:add_nbody6", "clustertools/cluster/cluster.py:add_binary_stars", "clustertools/io/load.py:advance_cluster"]}
{"id": "C114", "title": "Loading an astropy table takes each quantity from its column", "statement": "load_cluster('astropy_table', particles=table, ...) gives one star per row, in order: positions and velocities from the columns named by column_mapper, or, without it, from the only columns whose names agree up to case with the names searched for (Cartesian, or sky coordinates for units radec and origin sky); mass from m/mass (1 if absent), id from id (row number if absent); units and origin as given, orbital position from the orbit file; among several candidates the documented order decides; a missing coordinate raises ValueError.", "quantifier": "all tables, dictionaries, units, origins galaxy, cluster, centre (and sky), orbit files", "why_tests_cant": "all tables and namings", "anchors": ["clustertools/io/astropy_table.py:_get_astropy_table", "clustertools/io/load.py:load_cluster", "clustertools/cluster/cluster.py:add_stars"]}
{"id": "C115", "title": "Loading an astropy table has no side effects and works as for other types", "statement": "The caller's column_mapper is unchanged, tphys is accepted and the centre of a cluster in its own frame is found as for snapshots. Violated: the dictionary is emptied, so a second call raises KeyError; tphys raises TypeError; the centre stays at zero.", "quantifier": "all tables and dictionaries", "why_tests_cant": "for all tables", "anchors": ["clustertools/io/astropy_table.py:_get_astropy_table", "clustertools/io/load.py:load_cluster"]}
{"id": "C116", "title": "A cluster of galpy orbits has its stars where the orbits are", "statement": "load_cluster('galpy', particles=orbits, units='kpckms', ro=..., vo=...) with the ro and vo the orbits were made with gives one star per orbit, in order: physical position and velocity of the orbit, the mass given (array, number for all, or 1), ids from 1, units and origin as asked.", "quantifier": "all collections of orbits, masses, origins galaxy, cluster, centre", "why_tests_cant": "all collections of orbits and scales", "anchors": ["clustertools/io/galpydf.py:_get_galpy_orbits", "clustertools/io/load.py:load_cluster", "clustertools/cluster/cluster.py:add_stars"]}
{"id": "C117", "title": "A cluster of galpy orbits is right in every unit system and with an orbit file", "statement": "load_cluster('galpy', ...) converts the orbits to the units asked for, uses the orbits' own scales, and accepts orbit files and tphys. Violated: in pckms the positions are kpc; other scales than those of the orbits give wrong positions without warning; in galpy units no choice of ro and vo gives right positions and masses; an orbit file raises NameError; tphys raises TypeError.", "quantifier": "all collections of orbits, scales, masses, orbit files", "why_tests_cant": "for all orbits and all choices of ro and vo", "anchors": ["clustertools/io/galpydf.py:_get_galpy_orbits", "clustertools/io/load.py:load_cluster"]}
{"id": "C118", "title": "Concentration and central potential of King models convert into each other", "statement": "For every central potential in the tabulated range, w0_to_c gives a concentration on the broken line through the table and c_to_w0 of it gives the potential back; likewise for every concentration in the range of the table. More concentrated clusters have deeper potentials, and the entries of the table are reproduced.", "quantifier": "all W0 in [0.3, 19.5], all c between the tabulated extremes", "why_tests_cant": "real arguments: 192 intervals, nearest entry on either side", "anchors": ["clustertools/io/limepydf.py:c_to_w0", "clustertools/io/limepydf.py:w0_to_c"]}
{"id": "C119", "title": "Concentrations outside the table are refused or extrapolated sensibly", "statement": "c_to_w0 and w0_to_c answer sensibly, or raise a clear error, outside the tabulated range. Violated: all concentrations below the first get a potential between 0.299 and 0.3; above the last, IndexError; potentials of 0.29 or less give NaN although King models exist.", "quantifier": "all c and W0 outside the table", "why_tests_cant": "all real arguments outside the table", "anchors": ["clustertools/io/limepydf.py:c_to_w0", "clustertools/io/limepydf.py:w0_to_c"]}
{"id": "C120", "title": "A named globular cluster is sampled from its own row of the catalogue", "statement": "load_cluster('limepy', gcname=...) samples a cluster of de Boer's catalogue, by default and on request, with the W, g, rt and M of its row and M/mbar stars; source='harris' samples a King model with mass and limiting radius of the row with that name or alias, central potential from its concentration, and the number of stars asked for or M/mbar; an unknown name with source='harris' gives the empty cluster.", "quantifier": "all catalogues, names, mean masses, numbers of stars", "why_tests_cant": "all catalogues and names", "anchors": ["clustertools/io/limepydf.py:_get_cluster", "clustertools/io/limepydf.py:_get_deBoer_cluster", "clustertools/io/limepydf.py:_get_harris_cluster"]}
{"id": "C121", "title": "By default every catalogued cluster can be had, and unknown names are reported", "statement": "load_cluster('limepy', gcname=...) falls back on Harris's catalogue for clusters that de Boer's does not have, finds names whatever their case, honours N, and treats unknown names like source='harris' does. Violated: clusters only in Harris's catalogue raise IndexError; unknown names raise UnboundLocalError; rows whose names are not all upper case (Ko2, alias 47Tuc) can never be found; N is ignored.", "quantifier": "all catalogues and names", "why_tests_cant": "all catalogues and names", "anchors": ["clustertools/io/limepydf.py:_get_cluster", "clustertools/io/limepydf.py:_get_deBoer_cluster"]}
{"id": "C122", "title": "A limepy cluster is the one sampled, in the units and frame asked for", "statement": "load_cluster('limepy', gcname=..., units=..., origin=...) describes the same stars as the sampled cluster on its catalogued orbit: same time, masses, galactocentric positions and velocities, in the units and origin asked for, radii and totals up to date. load_cluster('limepy', model, units='pckms', origin='cluster', orbit=...) puts the sampled stars on the orbit at the cluster's time.", "quantifier": "all sampled clusters, linear units other than nbody, linear origins, orbits", "why_tests_cant": "all samples, unit systems and frames", "anchors": ["clustertools/io/limepydf.py:_get_limepy", "clustertools/io/load.py:load_cluster"]}
{"id": "C123", "title": "A limepy model is right in every unit system, frame and with an orbit file", "statement": "A limepy model loaded with units, origin='galaxy', orbit or orbit file is converted and placed accordingly. Violated: with origin='galaxy' and an orbit the stars stay around the galactic centre while the orbital position is recorded; units are only written on the cluster; an orbit file raises TypeError.", "quantifier": "all samples, unit systems, orbits, orbit files", "why_tests_cant": "for all samples and orbits", "anchors": ["clustertools/io/limepydf.py:_get_limepy", "clustertools/io/limepydf.py:_get_cluster_orbit", "clustertools/io/load.py:load_cluster"]}
{"id": "C124", "title": "Analysis calls are observers, in sessions of any length", "statement": "In any session of unit and frame conversions mixed with analysis calls (profiles, mass and equipartition functions, Lagrange, core, tidal, limiting and virial radii, relaxation times, energies, orbits, paths, tails, centres, gyrfalcON output), each analysis call gives the cluster back with the same stars, masses, centre, orbit, time, units, origin and up-to-date derived quantities, and the session leaves exactly the cluster its conversions alone would have left; a relaxation time asked for again afterwards is physically the same.", "quantifier": "all clusters, all sessions (any number and order of calls), all arguments, linear units and origins", "why_tests_cant": "unbounded interleavings of 37 analysis functions and all conversions", "anchors": ["clustertools/analysis/functions.py:rlagrange", "clustertools/analysis/functions.py:energies", "clustertools/analysis/functions.py:half_mass_relaxation_time", "clustertools/analysis/profiles.py:rho_prof", "clustertools/analysis/profiles.py:alpha_prof", "clustertools/analysis/orbits.py:initialize_orbit", "clustertools/tidaltail/tails.py:tail_path", "clustertools/cluster/cluster.py:return_cluster"]}
{"id": "C125", "title": "Results stored on the cluster are in its current units", "statement": "Attributes in which methods leave their results (cluster.trh, cluster.rv, ...) stand for the same quantity whatever is called later. Violated: conversions leave them as they were, so after a change of units they differ from what the method returns by the ratio of the units; what is proved is that they keep the number returned, valid in the units of the call.", "quantifier": "all clusters and sequences of method calls after the one that stored the result", "why_tests_cant": "unbounded sequences of calls", "anchors": ["clustertools/cluster/cluster.py:half_mass_relaxation_time", "clustertools/cluster/cluster.py:virial_radius"]}
{"id": "C126", "title": "NBODY6++ stellar evolution files go to the right stars and binaries", "statement": "If files conf.3_n, bev.82_n, sev.83_n, n = n0, n0+d, n0+2d, ..., contain a run, then after loading snapshot n0 and advancing k times each line of sev.83 of snapshot n0+k*d has given its stellar type and radius to the star of the cluster with that id (and that position and velocity), whatever the order of the lines; single stars without a line have type -10; the star representing a binary has the later of the two stellar types; the cluster has the number, ids, types and eccentricities of the binaries; to_sudays gives the semi-major axes, periods and masses of the file; binding energies are m1*m2/(2a).", "quantifier": "all snapshots (any number of stars and binaries, at least two lines in sev.83), all orders of lines, all k, d, directories", "why_tests_cant": "for all file contents and histories of advances", "anchors": ["clustertools/io/nbody6pp.py:_get_nbody6pp", "clustertools/io/nbody6pp.py:_get_nbody6pp_ev", "clustertools/cluster/cluster.py:add_sse", "clustertools/cluster/cluster.py:add_bse", "clustertools/io/load.py:load_cluster", "clustertools/io/load.py:advance_cluster", "clustertools/cluster/operations.py:to_sudays"]}
{"id": "C127", "title": "NBODY6++ luminosities and degenerate stellar evolution files", "statement": "The cluster has the luminosities and radii of the stellar evolution files, for any number of lines. Violated: log-luminosities of single stars are truncated to integers (0 < log L < 1 gives luminosity 1); with fewer than 14 binaries their luminosities and radii are ignored (the test for extra columns counts rows); with more, the logarithms are added, so a binary has the product of the luminosities; a file with a single line raises IndexError; a missing snapshot raises NameError if the stellar evolution files exist.", "quantifier": "all snapshots and stellar evolution files", "why_tests_cant": "for all file contents", "anchors": ["clustertools/io/nbody6pp.py:_get_nbody6pp", "clustertools/io/nbody6pp.py:_get_nbody6pp_ev", "clustertools/cluster/cluster.py:add_sse"]}
{"id": "C128", "title": "HDF5 output of NBODY6++ is read group by group and file by file", "statement": "Files snap.40_n.h5part and conf.3_n, n = n0, n0+d, ..., contain a run with any number of groups per file. After load_cluster(hdf5=True) of file n0 and k calls of advance_cluster (same dtout, snapdir), with any unit conversions and origin changes between them, the cluster is group i of file n0+j*d, where k is the number of groups in the files before plus i: N-body units with the scales and centre of that file's header, stars with the positions, velocities, masses (in pc, km/s, solar masses), ids, types, luminosities, potentials of the group, binaries first, each as one star at its centre of mass; semi-major axes, periods and component masses (to_audays), eccentricities, ids of the components, component positions; the time of the group; the position on line n0/d+k of the orbit file.", "quantifier": "all runs (any numbers of files, groups, stars, binaries), all numbers of advances, all conversions between them, all directories", "why_tests_cant": "for all file contents and histories of advances and conversions", "anchors": ["clustertools/io/nbody6pp.py:_get_nbody6pp", "clustertools/io/nbody6pp.py:_get_nbody6pp_hdf5", "clustertools/io/nbody6pp.py:_get_nbody6pp_hdf5_binaries", "clustertools/io/nbody6pp.py:_get_nbody6pp_conf3", "clustertools/io/load.py:load_cluster", "clustertools/io/load.py:advance_cluster", "clustertools/cluster/cluster.py:add_nbody6", "clustertools/cluster/cluster.py:add_bse", "clustertools/cluster/cluster.py:add_sse", "clustertools/cluster/cluster.py:add_binary_stars", "clustertools/cluster/operations.py:to_nbody"]}
{"id": "C129", "title": "HDF5 output: end of the run, scales, counts, component masses", "statement": "Advancing past the last group of the last file gives a cluster without stars; scales of the header are used for every group of the file; the numbers of single stars and binaries, masses of components and logarithms of radii are those of the group; a header file without stars is no obstacle. Violated: the next file missing raises FileNotFoundError; if the header has no stars in the core, groups after the first have radius scale 1 and their time in N-body units is taken for Myr; a group without binaries keeps the count of the previous group; component masses are all 1, the number of single stars is too small by the number of binaries, logr holds radii; a header without stars raises IndexError.", "quantifier": "all runs as in C128", "why_tests_cant": "for all file contents and histories", "anchors": ["clustertools/io/nbody6pp.py:_get_nbody6pp", "clustertools/io/nbody6pp.py:_get_nbody6pp_hdf5", "clustertools/io/load.py:advance_cluster", "clustertools/cluster/cluster.py:add_nbody6", "clustertools/cluster/cluster.py:add_binary_stars"]}
{"id": "C130", "title": "Clusters built from observations on the sky become the right Galactocentric clusters", "statement": "A StarCluster(units='radec', origin='sky') is filled by any sequence of add_stars calls with ra, dec, dist, pmra, pmdec, vlos and given its own position by add_orbit. Then any sequence of unit and origin conversions succeeds and the cluster shows the observations: on the sky exactly the observed values, in every other unit system and frame the Galactocentric positions and velocities galpy assigns to them, with the masses and time. A quantity that is zero for all stars is replaced by the cluster's.", "quantifier": "all sequences of add_stars calls, observations, cluster positions and sequences of conversions (observations that galpy's coordinate map reproduces)", "why_tests_cant": "for all observations and all histories of conversions", "anchors": ["clustertools/cluster/cluster.py:StarCluster.add_stars", "clustertools/cluster/cluster.py:StarCluster.add_orbit", "clustertools/cluster/operations.py:from_radec", "clustertools/cluster/operations.py:to_radec", "clustertools/cluster/operations.py:to_sky", "clustertools/analysis/orbits.py:initialize_orbit", "clustertools/analysis/orbits.py:initialize_orbits"]}
{"id": "C131", "title": "Clusters built from observations: missing quantities, centre, later orbits", "statement": "Completed quantities also appear in the coordinates x ... vz; the centre of a cluster built on the sky is the cluster's position until another is found; a position given to add_orbit later is the cluster's position from then on; a centre in N-body units survives a visit to the sky. Violated: x ... vz keep the zeros until the first conversion, the centre after to_kpckms is the Galactocentric position of the Sun and to_centre subtracts it, an add_orbit after orbits were cached is undone by the next to_radec, the velocity of the centre becomes zero.", "quantifier": "all clusters as in C130; for the later orbit all admissible clusters with cached orbits", "why_tests_cant": "for all observations and histories", "anchors": ["clustertools/cluster/cluster.py:StarCluster.add_orbit", "clustertools/cluster/operations.py:from_radec", "clustertools/cluster/operations.py:to_radec", "clustertools/cluster/operations.py:to_centre"]}
{"id": "C132", "title": "Clusters of AMUSE particles", "statement": "load_cluster('amuse', particles=..., units=u, origin=o) with u in pckms, kpckms, kpcgyr, pcmyr, amuse or not given makes one star per particle, in order, with the particle's position, velocity and mass expressed in u and its key as id; the labels are those asked for. Reading numbered files, loading number n and advancing k times gives the particles of file n+k. A named file that exists is the one read; a named file that does not exist raises OSError.", "quantifier": "all particle sets (not empty, total mass not negative), unit labels, origins, file systems and numbers of advances", "why_tests_cant": "for all particle sets and all numbers of advances", "anchors": ["clustertools/io/amuse.py:_get_amuse_particles", "clustertools/util/units.py:_convert_amuse", "clustertools/io/load.py:load_cluster", "clustertools/io/load.py:advance_cluster", "clustertools/io/load.py:_get_filename", "clustertools/io/load.py:_get_advanced_kwargs", "clustertools/cluster/cluster.py:StarCluster.add_stars"]}
{"id": "C133", "title": "AMUSE particles: other units, orbit files, given particles, end of a run, time", "statement": "Particles can be loaded in every unit system of the package and with an orbit file; particles given to load_cluster are the ones used; a run whose files are numbered is followed with the default options; at the end of the run advance_cluster gives a cluster without stars; the age is that of the snapshot. Violated: NameError in nbody, galpy, WDunits and radec and with an orbit file; a file 0.dat replaces the particles given; with default options loading reads 0.dat and advancing looks for 00001.dat; at the end the old cluster comes back for ever; the age is always 0 and cannot be passed.", "quantifier": "all particle sets, file systems, numbers of advances", "why_tests_cant": "for all particle sets and all numbers of advances", "anchors": ["clustertools/io/amuse.py:_get_amuse_particles", "clustertools/util/units.py:_convert_amuse", "clustertools/io/load.py:load_cluster", "clustertools/io/load.py:advance_cluster", "clustertools/io/load.py:_get_filename"]}
{"id": "C134", "title": "Ids of stars are kept", "statement": "After any history of add_stars calls (without binaries), with ids of any integer or float type or without ids, the ids of the cluster are those given, in order, and ids that count on from the largest so far, provided no id exceeds 2^53 in size. From the second call on signed integer ids of any size are kept.", "quantifier": "all histories of add_stars calls, all ids and types", "why_tests_cant": "for all histories and all ids; numpy's type promotion depends on the history", "anchors": ["clustertools/cluster/cluster.py:StarCluster.add_stars", "clustertools/cluster/cluster.py:StarCluster.__init__"]}
{"id": "C135", "title": "Large ids are kept and stay distinct", "statement": "Ids above 2^53 (19-digit Gaia source ids, AMUSE keys) are stored as given, so that different stars have different ids. Violated: the first call of add_stars appends them to an empty array of floats, so every odd id above 2^53 is changed and neighbouring ids become equal; unsigned ids added later change large ids already there.", "quantifier": "all id lists with an odd id above 2^53, all histories before", "why_tests_cant": "for all ids and histories", "anchors": ["clustertools/cluster/cluster.py:StarCluster.add_stars", "clustertools/cluster/cluster.py:StarCluster.__init__"]}
{"id": "C136", "title": "Scatter plots show the stars where they are and leave the cluster alone", "statement": "In any session of conversions, star plots and sky plots, in any order, every call succeeds and the cluster still describes the same stars. A star plot that writes a unit on its axes draws every star, in that unit, at its position in the cluster's current frame, on the right axes; the two-panel plot marks the cluster's position and centre where they are. A sky plot draws every star at the sky coordinates (or proper motions) of its true position, and leaves the units, the frame, the stars, masses, position and time as they were.", "quantifier": "all clusters in linear or radec units, all sessions, all kinds of plots", "why_tests_cant": "for all clusters and all sessions of calls", "anchors": ["clustertools/util/plots.py:starplot", "clustertools/util/plots.py:skyplot", "clustertools/cluster/operations.py:to_radec", "clustertools/cluster/operations.py:return_cluster", "clustertools/cluster/operations.py:to_amuse"]}
{"id": "C137", "title": "Plots: amuse units, marked centres, stored centre", "statement": "A plot leaves the units as they were, marks the cluster where it is on the axes drawn, and does not change the stored centre. Violated: a one-panel star plot leaves amuse units for pckms; in the cluster frame it marks the galactocentric position; a plot of proper motions marks right ascension and declination; a sky plot replaces the centre by centre plus galactocentric position.", "quantifier": "all clusters, all kinds of plots", "why_tests_cant": "for all clusters", "anchors": ["clustertools/util/plots.py:starplot", "clustertools/util/plots.py:skyplot", "clustertools/cluster/operations.py:from_radec"]}
{"id": "C138", "title": "Projections on the plane of the sky", "statement": "After any history of recentrings on the sky, to_cluster (to_centre) with the orthographic or van de Ven method gives every star, in degrees, the components of its direction along the east and north of the cluster's position (the centre), so that its distance from the origin is the sine of the angle between the two, independent of whole turns in right ascension; the orthographic to_cluster gives the components of the star's motion across the sky along these axes relative to the cluster's proper motion.", "quantifier": "all radec clusters, all histories of recentrings, all coordinates", "why_tests_cant": "for all coordinates and histories", "anchors": ["clustertools/cluster/operations.py:_get_orthographic_centre", "clustertools/cluster/operations.py:_get_vandeven_centre", "clustertools/cluster/operations.py:to_cluster", "clustertools/cluster/operations.py:to_centre"]}
{"id": "C139", "title": "Projections on the sky: right ascension zero and axes of the motions", "statement": "The coordinates about the reference point depend only on the star's direction, and motions are given along the reference point's axes, for every centre method. Violated: the default method tears a cluster across right ascension zero apart (a star at 359 degrees one degree from a cluster at 0 is put at 359 degrees); the van de Ven method does not turn the proper motions into the reference's axes.", "quantifier": "all coordinates", "why_tests_cant": "for all coordinates", "anchors": ["clustertools/cluster/operations.py:to_cluster", "clustertools/cluster/operations.py:to_centre", "clustertools/cluster/operations.py:_get_vandeven_centre"]}
{"id": "C140", "title": "Tapered mass functions fit the histogram they report", "statement": "For a cluster of positive masses with at least nmass selected stars, not all of one mass, tapered_mass_function makes contiguous bins from the smallest to the largest selected mass, reports mean mass, number and weighted number per unit mass of the selected stars in every bin (numbers adding up to all selected stars), hands exactly these means and densities to curve_fit with the extreme masses of the cluster as bounds of the characteristic mass, and returns what curve_fit found; with a fit that keeps its bounds the amplitude is not negative and the characteristic mass lies between the extreme masses; the cluster is left as it was. tapered_dx_function does the same for a list of positive values, bins without values left out.", "quantifier": "all clusters, selections, completeness corrections, numbers of bins, all fitting routines", "why_tests_cant": "for all clusters and selections, and whatever the fit returns", "anchors": ["clustertools/analysis/functions.py:tapered_mass_function", "clustertools/analysis/functions.py:tpl_func", "clustertools/util/recipes.py:tapered_dx_function", "clustertools/util/recipes.py:tapered_func"]}
{"id": "C141", "title": "Tapered mass functions: few stars, range of the characteristic mass", "statement": "tapered_mass_function returns the same number of values whatever the selection, and the characteristic mass lies in the range of the selected masses. Violated: with too few stars it returns seven values instead of eleven, so unpacking them raises ValueError; the bounds of the fit come from all stars, so a heavy star outside the selection allows a characteristic mass above every selected mass. (The method of the same name names its first argument cluster but uses self, and always raises NameError.)", "quantifier": "all clusters and selections", "why_tests_cant": "for all clusters and selections", "anchors": ["clustertools/analysis/functions.py:tapered_mass_function", "clustertools/cluster/cluster.py:StarCluster.tapered_mass_function"]}
{"id": "C142", "title": "A sampled limepy model is the one asked for", "statement": "load_cluster('limepy', W0|phi0=…, g=…, M=…, and at most one of rt, rv, rh, rm, r0, rc, units='pckms') asks limepy for the model with this central potential, mass and radius (rm a half-mass, rc a scale radius; virial radius 1 pc without a radius) in limepy's own units (pc, km/s, solar masses) and draws from it the number of stars asked for, by default mass over mean mass rounded down; the cluster has exactly these stars in order, with limepy's masses and ids 1…N, in the frame of the cluster at time 0. A user's own model is sampled whatever parameters stand beside it. Without a model and a central potential the call raises TypeError.", "quantifier": "all potentials, masses, radii, numbers of stars, all models and all behaviours of limepy and its sampler", "why_tests_cant": "for all parameters and all limepy models", "anchors": ["clustertools/io/limepydf.py:_sample_limepy", "clustertools/io/limepydf.py:_get_limepy"]}
{"id": "C143", "title": "Sampling limepy models: keywords", "statement": "Documented keywords have their documented effect: the radius scales the model, N defaults to 1000, mbar is the mean mass of the stars, ro is the scale radius, project selects projected values. Violated: without M any radius is silently ignored and the model with G=M=rv=1 is labelled pc and km/s; N defaults to int(M/mbar), one star without M; ro and project change nothing, mbar nothing if N is given; with rt all other radii are ignored.", "quantifier": "all keyword combinations", "why_tests_cant": "for all keyword values and all limepy models", "anchors": ["clustertools/io/limepydf.py:_sample_limepy", "clustertools/io/limepydf.py:_get_limepy"]}
{"id": "C144", "title": "Attributes hold the last results of methods, and methods are observers", "statement": "After any sequence of conversions, analysis functions and methods of a cluster (relaxation times, Lagrange, virial, core, tidal, limiting radii, distances to neighbours, mass function, eta, meq, kinematic concentration), each attribute (trelax, trh, trc, rn, rv, rc, rt, rl, alpha, eta, meq, ck, d_closest) holds exactly what the corresponding method returned last, the cluster is the one the conversions alone would have left, and every stored virial radius is the virial radius of the same stars in the units the cluster had at that time. Every stored value comes from a call of the method the attribute is documented to belong to.", "quantifier": "all clusters in linear units and all sequences of calls", "why_tests_cant": "all histories of calls; a test tries one order", "anchors": ["clustertools/cluster/cluster.py:relaxation_time", "clustertools/cluster/cluster.py:half_mass_relaxation_time", "clustertools/cluster/cluster.py:core_relaxation_time", "clustertools/cluster/cluster.py:closest_star", "clustertools/cluster/cluster.py:rlagrange", "clustertools/cluster/cluster.py:virial_radius", "clustertools/cluster/cluster.py:mass_function", "clustertools/cluster/cluster.py:eta_function", "clustertools/cluster/cluster.py:meq_function", "clustertools/cluster/cluster.py:ckin", "clustertools/cluster/cluster.py:rcore", "clustertools/cluster/cluster.py:rtidal", "clustertools/cluster/cluster.py:rlimiting"]}
{"id": "C145", "title": "Methods agree on the default of projected", "statement": "A method called without the keyword projected uses space values, as documented (default: False). Violated: for a cluster created with projected=True, relaxation times, Lagrange and virial radii and distances to neighbours are projected, while mass function, eta, meq, ckin, core radius and limiting radius are not.", "quantifier": "all clusters set to projection and all other arguments", "why_tests_cant": "for all clusters and arguments", "anchors": ["clustertools/cluster/cluster.py:relaxation_time", "clustertools/cluster/cluster.py:rlagrange", "clustertools/cluster/cluster.py:virial_radius", "clustertools/cluster/cluster.py:mass_function", "clustertools/cluster/cluster.py:rcore", "clustertools/cluster/cluster.py:rlimiting"]}
{"id": "C146", "title": "Stellar evolution data stay with their stars", "statement": "After any sequence of add_sse and add_bse calls (without arg) the evolution columns hold exactly the rows given, in order and aligned with each other (missing epochs and spins are 0), luminosities are 10**logl, ltot their sum, eb = m1 m2/(2 semi) and nb the number of binaries; the evolution data of a subcluster are the rows of its stars and of the binaries with a component among them.", "quantifier": "all sequences of calls, all rows, all selections", "why_tests_cant": "all sequences of calls and all selections of stars", "anchors": ["clustertools/cluster/cluster.py:add_sse", "clustertools/cluster/cluster.py:add_bse", "clustertools/cluster/cluster.py:sub_cluster"]}
{"id": "C147", "title": "add_sse with arg places the data", "statement": "add_sse(…, arg=…) gives the data to the stars named in arg and leaves a cluster that works like any other. Proved: kw, logl, logr (and epochs, spins) go to the stars named. Violated: epochs and spins are appended a second time (and are NaN where not given), so that afterwards every sub_cluster call raises IndexError; likewise if add_bse is given epochs and spins for some of the binaries only: they stand beside other binaries, and sub_cluster raises.", "quantifier": "all distinct places, all rows, all later selections", "why_tests_cant": "all places, rows and selections", "anchors": ["clustertools/cluster/cluster.py:add_sse", "clustertools/cluster/cluster.py:add_bse", "clustertools/cluster/cluster.py:sub_cluster"]}
{"id": "C148", "title": "A call that is broken off loses nothing", "statement": "Whatever analysis call is made, with whatever arguments, and wherever between its internal conversions it ends - by returning, by any exception, or by an interrupt: the cluster describes the same stars, masses, centre, position and time as before (with radii, totals and orders that belong to it), and to_units and to_origin with the labels it had bring back exactly its data. The same holds after any session of conversions and analysis calls in which every exception is caught; and if nothing is raised, catching makes no difference.", "quantifier": "all 38 analysis calls with all arguments, all clusters in linear units and frames, all points between conversions, all sessions", "why_tests_cant": "all crash points of all calls in all sessions", "anchors": ["clustertools/analysis/functions.py", "clustertools/analysis/profiles.py", "clustertools/analysis/orbits.py", "clustertools/tidaltail/tails.py", "clustertools/cluster/operations.py:save_cluster", "clustertools/cluster/operations.py:return_cluster"]}
{"id": "C149", "title": "A call that raises or is interrupted leaves the cluster as it was", "statement": "After a call that raises, or that is interrupted, the cluster has the units, origin and data it had. Violated: relaxation_time with a radius given raises for every cluster and leaves it in pc and km/s, around its centre unless it was given from its position or centre; and an interrupt inside to_kpckms leaves a cluster labelled pckms with its time (and from the second statement on its stars' coordinates) a thousandth of the true ones, which calling to_kpckms again does not repair.", "quantifier": "all clusters; all statements of to_kpckms", "why_tests_cant": "all crash points, all clusters", "anchors": ["clustertools/analysis/functions.py:relaxation_time", "clustertools/cluster/operations.py:to_kpckms"]}
{"id": "C150", "title": "save_cluster and return_cluster bring the cluster back", "statement": "After cluster.save_cluster(), any number of conversions and return_cluster() calls, a last cluster.return_cluster() does not raise and the cluster has exactly the data it had. If the caller keeps the four saved values and passes them to return_cluster, this holds after any session of conversions, analysis calls (whose exceptions are caught), other saves and returns, even though a value None among them is replaced by whatever any function saved last.", "quantifier": "all clusters in linear units and frames, all sessions, all choices of what the analysis functions saved last", "why_tests_cant": "all histories", "anchors": ["clustertools/cluster/cluster.py:save_cluster", "clustertools/cluster/cluster.py:return_cluster", "clustertools/cluster/operations.py:return_cluster"]}
{"id": "C151", "title": "save_cluster and return_cluster can be nested", "statement": "cluster.return_cluster() returns to the state of the matching cluster.save_cluster(), whatever analysis or nested pairs come in between, and is harmless if nothing was saved. Violated: analysis functions overwrite the saved values, so that after save, a conversion and one rlagrange, return_cluster() stays where rlagrange was called; the same with an inner save/return pair; without a save it raises AttributeError.", "quantifier": "all clusters in linear units and frames, all conversions", "why_tests_cant": "all histories", "anchors": ["clustertools/cluster/cluster.py:save_cluster", "clustertools/cluster/cluster.py:return_cluster", "clustertools/analysis/functions.py:rlagrange"]}
{"id": "C152", "title": "No session of conversions, analysis, virialisation, rotation and centring moves a star", "statement": "After any session, of any length, of unit and frame conversions, analysis calls, energies, virialize, add_rotation, reset_nbody_scale, find_centre and find_centre_of_mass, each made where it is allowed, the cluster has the same stars with the same masses at the same places in the galaxy, and radii, speeds, totals and the stored radial order belong to it. Velocities are unchanged unless virialize or add_rotation was called, centre and orbit position unless a centre finder was. (Not allowed: rotation of a galactocentric cluster, C73; N-body scales of a cluster in N-body units, C46; storing a centre with the radial order of another frame, C153.)", "quantifier": "all clusters in linear units and frames, all such sessions and arguments, all random numbers", "why_tests_cant": "all histories", "anchors": ["clustertools/cluster/cluster.py:virialize", "clustertools/cluster/cluster.py:add_rotation", "clustertools/cluster/cluster.py:reset_nbody_scale", "clustertools/cluster/cluster.py:find_centre", "clustertools/cluster/cluster.py:find_centre_of_mass", "clustertools/cluster/cluster.py:_set_centre"]}
{"id": "C153", "title": "Storing a centre keeps the radial order right", "statement": "After a centre finder has stored a centre, to_centre() leaves radii, radial order and Lagrange radii that belong to each other. Violated: a cluster with the radial order of its centre frame (after to_cluster(sortstars=False)) keeps that order when find_centre_of_mass stores another centre and to_centre() is called, since the order carries the label of the frame; the 10 per cent radius is then wrong.", "quantifier": "all clusters in linear units with such an order, all new centres", "why_tests_cant": "all clusters and centres", "anchors": ["clustertools/cluster/cluster.py:_set_centre", "clustertools/cluster/cluster.py:sortstars", "clustertools/cluster/operations.py:to_centre"]}
{"id": "C154", "title": "Structure does not depend on what was done to the velocities or the description", "statement": "Take any session, of any length, of conversions of units and origin, analysis calls, energies, virialize, add_rotation, reset_nbody_scale and centre finders. The virial radius (both implementations, in space and projection) and the distance of every star to its nearest neighbour asked for after it are, in physical units, those asked for before it. If no centre finder was called and the cluster is measured from the same point, so are all Lagrange radii and the half-mass relaxation time.", "quantifier": "all analysed clusters in linear units, all sessions of the allowed calls, all numbers of Lagrange radii, all trees that find nearest neighbours", "why_tests_cant": "all clusters and all sequences of calls; a test tries one order", "anchors": ["clustertools/analysis/functions.py:rlagrange", "clustertools/analysis/functions.py:virial_radius", "clustertools/analysis/functions.py:half_mass_relaxation_time", "clustertools/analysis/functions.py:closest_star", "clustertools/cluster/operations.py:virialize", "clustertools/cluster/operations.py:add_rotation", "clustertools/cluster/operations.py:reset_nbody_scale"]}
{"id": "C155", "title": "The methods for orbits and tails observe the cluster and keep their results", "statement": "cluster.orbital_path, orbital_path_match, to_tail, tail_path and tail_path_match return what the functions of that name return and store it: tpath/xpath/… hold the last path, tstar/dprog/dpath the last match, x_tail/…/r_tail/v_tail the last tail coordinates, until a method of the same kind is called again. r_tail and v_tail are the stars' distances and speeds relative to the centre. Called any number of times in any order among conversions and analysis functions they leave the cluster exactly as the conversions alone would.", "quantifier": "every analysed cluster in linear units, every session of conversions, analysis calls and these methods, every integrator and argument", "why_tests_cant": "a test runs one sequence of calls with one cluster; the claim is about all sequences", "anchors": ["clustertools/cluster/cluster.py:orbital_path", "clustertools/cluster/cluster.py:orbital_path_match", "clustertools/cluster/cluster.py:to_tail", "clustertools/cluster/cluster.py:tail_path", "clustertools/cluster/cluster.py:tail_path_match"]}
{"id": "C156", "title": "What the path methods leave behind describes the present cluster", "statement": "After orbital_path(initialize=True) the stored orbit is the cluster's orbit at the present, so that to_radec gives the cluster's place in the sky; the keyword tfinal of tail_path and tail_path_match is respected; stored paths follow the units of the cluster. VIOLATED: the stored orbit begins where the cluster was tfinal ago and to_radec takes that place as the cluster's; tfinal is ignored because dt is always passed; unit conversions leave the stored path in the old units.", "quantifier": "every cluster in linear units, every integrator, every tfinal and number of points, every session after the call", "why_tests_cant": "the wrong place appears only when a sky conversion follows the call", "anchors": ["clustertools/cluster/cluster.py:orbital_path", "clustertools/cluster/cluster.py:tail_path", "clustertools/analysis/orbits.py:orbital_path", "clustertools/cluster/operations.py:to_radec"]}
{"id": "C157", "title": "Half-light radii", "statement": "After add_sse with one luminosity for each star, analyze() sets rh and rh10 to the radius of the smallest sphere of stars about the origin with a half and a tenth of the total light (a star's radius, with rh10 <= rh), and rhpro, rh10pro likewise in projection if there is no stored projected order or it is right; otherwise analyze does what it does without luminosities. In parsecs rh depends only on the stars, the luminosities and the origin, whatever conversions and analysis functions were called before.", "quantifier": "every cluster with stars, every luminosities, every session of conversions and analysis functions", "why_tests_cant": "a test evaluates rh for one cluster; minimality over all radii and independence of the history range over all of them", "anchors": ["clustertools/cluster/cluster.py:analyze", "clustertools/cluster/cluster.py:add_sse", "clustertools/cluster/cluster.py:sortstars"]}
{"id": "C158", "title": "Half-light radii when luminosities and orders do not fit", "statement": "A cluster with luminosities can be given more stars by add_stars; the projected half-light radius is right whenever analyze has run. VIOLATED: add_stars raises IndexError with the rows added and ntot left at the old number; analyze(projected=False) sets rhpro to 0; after a change of origin rhpro is taken in the old projected order.", "quantifier": "every cluster with luminosities, every rows added", "why_tests_cant": "the failures need a certain order of calls that no test makes", "anchors": ["clustertools/cluster/cluster.py:analyze", "clustertools/cluster/cluster.py:add_sse", "clustertools/cluster/cluster.py:sortstars", "clustertools/cluster/cluster.py:add_stars"]}
{"id": "C159", "title": "Snapshots written with energies", "statement": "snapout writes one row per star in the order of the cluster: mass, position, velocity, id, and the stellar type if there is one for each star. With energies=True, and types and energies for all stars, the columns are the twelve documented ones. No other file is touched, and the file loaded with the written column layout gives back the same stars, masses, ids and types in the same order.", "quantifier": "every cluster of at least two stars, every energies, file name and file system, every linear units and origin", "why_tests_cant": "a test writes one cluster; the claim is about all clusters and all values", "anchors": ["clustertools/util/output.py:snapout", "clustertools/io/load.py:load_cluster"]}
{"id": "C160", "title": "snapout works with every option", "statement": "snapout(energies=True) and snapout(radec=True) write the documented file for every cluster, and the columns of a row agree with each other. VIOLATED: radec=True always raises TypeError (sky_coords passes keywords to_radec does not have); energies=True raises ValueError for clusters without stellar types or without calculated energies; after a change of units the energies written are those of the old units.", "quantifier": "every cluster of at least two stars, every file name and file system", "why_tests_cant": "no test writes energies or sky coordinates; the failure is for all clusters, not for one", "anchors": ["clustertools/util/output.py:snapout", "clustertools/util/coordinates.py:sky_coords", "clustertools/cluster/cluster.py:to_radec"]}
{"id": "C161", "title": "Analysis on the sky gives the stars back", "statement": "For a cluster in radec units, saving the coordinate system, making any sequence of unit and origin conversions and calling return_cluster gives back the cluster as it was on the sky: units, origin, sky coordinates of every star, the cluster's own sky position, masses, time and N-body scales; and half_mass_relaxation_time, called on such a cluster, returns without an exception and does the same.", "quantifier": "every cluster of at least one star brought to the sky by any sequence of conversions, every sequence of conversions before the return, every gamma", "why_tests_cant": "a test saves and returns one cluster after one sequence; the claim is about all sequences and clusters", "anchors": ["clustertools/analysis/functions.py:half_mass_relaxation_time", "clustertools/cluster/operations.py:return_cluster", "clustertools/cluster/operations.py:to_radec", "clustertools/cluster/operations.py:from_radec"]}
{"id": "C162", "title": "Analysis on the sky is right and keeps the centre", "statement": "For a cluster in radec units, half_mass_relaxation_time uses the half-mass radius of the cluster about its centre, and leaves the stored centre as it was. VIOLATED: to_centre is called before to_pckms, and leaving radec units always puts the stars in the galactocentric frame; so the radius is that of the stars about the Galactic centre, at least the distance of the nearest star to it; and each call moves the stored centre by the cluster's own galactocentric position once more.", "quantifier": "every cluster of stars brought to the sky, every gamma, any number of calls", "why_tests_cant": "no test asks for a relaxation time in radec units; the error accumulates with the number of calls", "anchors": ["clustertools/analysis/functions.py:half_mass_relaxation_time", "clustertools/cluster/operations.py:return_cluster", "clustertools/cluster/operations.py:to_radec", "clustertools/cluster/operations.py:from_radec"]}
{"id": "C163", "title": "The tidal radius on the sky", "statement": "For a cluster in radec units, rtidal without iteration and with from_centre=False returns the angle, in degrees, under which the tidal radius of the mass of the whole cluster at its galactocentric position (or the position given by rgc and zgc) is seen at the cluster's distance; and the cluster is left as it was on the sky.", "quantifier": "every cluster brought to the sky by any sequence of conversions, every potential, rgc and zgc", "why_tests_cant": "no test calls rtidal in radec units; the claim is about all clusters, positions and potentials", "anchors": ["clustertools/analysis/functions.py:rtidal", "clustertools/cluster/operations.py:to_galpy", "clustertools/cluster/operations.py:from_radec", "clustertools/util/units.py:_convert_length"]}
{"id": "C164", "title": "Iterated and centred tidal radii on the sky", "statement": "For a cluster in radec units, rtidal with iterations returns the converged tidal radius about the cluster centre, and with from_centre=True evaluates the potential at the centre of the cluster. VIOLATED: the stars are measured from the Galactic centre (to_centre is undone by the change to galpy units), so with iterations the answer is zero unless a star is nearer to the Galactic centre than the first estimate; and from_centre adds the galactocentric position of the centre to that of the cluster.", "quantifier": "every cluster of stars brought to the sky, every potential vanishing at zero mass, every number of iterations", "why_tests_cant": "no test calls rtidal in radec units; the failure is for all clusters, not for one", "anchors": ["clustertools/analysis/functions.py:rtidal", "clustertools/cluster/operations.py:to_galpy", "clustertools/cluster/operations.py:from_radec", "clustertools/util/units.py:_convert_length"]}
{"id": "C165", "title": "Centre of density", "statement": "find_centre_of_density gives the end point of the shrinking spheres (or the density-weighted centre for method='casertano') of the selected stars and leaves the cluster as it was; find_centre with density=True gives the same answer for the same arguments. The method of the same name with the default method returns that point and makes it the cluster's centre: to_centre afterwards puts the stars relative to it.", "quantifier": "every cluster with linear units, every selection of at least one star, starting point, nsphere, rmin, rmax, nmax", "why_tests_cant": "a test checks one cluster; the claim is about all clusters, selections and parameters", "anchors": ["clustertools/cluster/cluster.py:find_centre_of_density", "clustertools/analysis/functions.py:find_centre_of_density", "clustertools/analysis/functions.py:find_centre"]}
{"id": "C166", "title": "The method find_centre_of_density respects its arguments", "statement": "The method find_centre_of_density gives what the function gives for the same arguments. VIOLATED: method and nneighbour are not passed on; with method='casertano' the method answers with shrinking spheres, and so with the starting point whenever the cluster has not more than nsphere (default 100) stars, wherever they are; and an unknown method name, for which the function raises, is accepted.", "quantifier": "every cluster with linear units, every selection, every valid neighbour query", "why_tests_cant": "tests compare the two only for the default method", "anchors": ["clustertools/cluster/cluster.py:find_centre_of_density", "clustertools/analysis/functions.py:find_centre_of_density", "clustertools/analysis/functions.py:find_centre"]}
{"id": "C167", "title": "New N-body scales of a sub-cluster", "statement": "sub_cluster with reset_nbody (or reset_nbody_mass or reset_nbody_radii) gives the cluster of the selected stars: the same stars with the same ids at the same places in the galaxy, in the units and origin of the parent, N-body units included. Its unit of mass is its own total mass when that is asked for, its unit of length its own virial radius (reset_rvirial) or 4/3 of its own half-mass radius, and the units of velocity and time follow from them; in N-body units it has total mass 1, and virial radius 1.", "quantifier": "every cluster with linear units and origin, every selection of at least one star, every combination of the reset arguments, stars not all in one place", "why_tests_cant": "a test checks one cluster, selection and unit system", "anchors": ["clustertools/cluster/cluster.py:sub_cluster", "clustertools/cluster/cluster.py:reset_nbody_scale", "clustertools/cluster/operations.py:reset_nbody_scale"]}
{"id": "C168", "title": "Arguments of the new N-body scales", "statement": "reset_nbody_mass without reset_nbody_radii keeps the unit of length; reset_projected makes the radii projected; the keywords documented for virial_radius can be given to reset_nbody_scale. VIOLATED: the unit of length is replaced whenever the mass is; reset_projected does nothing without reset_rvirial; and any of the keywords method, full, H, Om, overdens, nrad, plot makes reset_nbody_scale raise a TypeError, with the cluster left in pc and km/s about its centre.", "quantifier": "every cluster with linear units, every selection, every combination of the arguments", "why_tests_cant": "tests use the defaults", "anchors": ["clustertools/cluster/cluster.py:sub_cluster", "clustertools/cluster/cluster.py:reset_nbody_scale", "clustertools/cluster/operations.py:reset_nbody_scale"]}
{"id": "C169", "title": "A sub-cluster about its own centre", "statement": "sub_cluster with reset_centre=True, of a cluster given about its position or about the galactic centre, is the cluster of the selected stars about their own centre: the same stars with the same ids at the same places in the galaxy, in the units and origin of the parent, with their centre (or their position, about the galactic centre) at the point that shrinking spheres lead to on the selected stars alone. N-body scales asked for at the same time are those of the selected stars measured about that centre; otherwise those of the parent are kept.", "quantifier": "every cluster with linear units and origin cluster or galaxy, every selection of at least one star, every combination of the reset arguments", "why_tests_cant": "a test checks one cluster and selection", "anchors": ["clustertools/cluster/cluster.py:sub_cluster", "clustertools/cluster/cluster.py:find_centre", "clustertools/cluster/cluster.py:_set_centre"]}
{"id": "C170", "title": "reset_centre from the centre", "statement": "sub_cluster with reset_centre=True of a cluster given about its centre keeps every star where it is and as fast as it is in the galaxy. VIOLATED: the position of the centre is copied but not its velocity, and the centre that is found is not stored: every velocity in the galaxy is off by the velocity of the centre.", "quantifier": "every cluster with linear units about its centre, every selection of at least one star", "why_tests_cant": "tests look at positions, or at clusters whose centre does not move", "anchors": ["clustertools/cluster/cluster.py:sub_cluster", "clustertools/cluster/cluster.py:find_centre", "clustertools/cluster/cluster.py:_set_centre"]}
{"id": "C171", "title": "Stars matched to a path on the sky", "statement": "orbital_path_match with skypath=True, of a cluster in kpc at the galactic centre, matches every star to the point of the path that is nearest to it in right ascension and declination, and reports the time of that point in Gyr, the distance along the path from the present to it and the distance of the star from it, in degrees (with a sign from the declination; zero when a path point is at the star's own declination). Without a path given, the path is the orbit of the cluster seen on the sky from tfinal Gyr ago to tfinal Gyr from now. The cluster is the same afterwards: same stars, units and origin.", "quantifier": "every cluster in kpckms, kpcgyr or WDunits at the galactic centre, every non-empty path, every flow of a static potential, every number of steps from two", "why_tests_cant": "a test checks one path and a few stars", "anchors": ["clustertools/analysis/orbits.py:orbital_path_match", "clustertools/analysis/orbits.py:orbital_path", "clustertools/cluster/operations.py:to_radec", "clustertools/util/units.py:_convert_length"]}
{"id": "C172", "title": "Distances on the sky in every state", "statement": "What orbital_path_match with skypath=True reports is in degrees and about the place of the star on the sky, whatever the units and origin of the cluster, and the path starts where from_centre says and extends over tfinal in the units of the cluster. VIOLATED: the angles are converted as if they were kpc (a thousand times the degrees in pc and km/s; in radec the arctangent of degrees over the distance); about the cluster the offsets of the stars are compared with absolute places, so a star at the cluster is matched to the point nearest to (0, 0); from_centre has no effect; tfinal is read in Gyr.", "quantifier": "every cluster in the units and origin named, every non-empty path", "why_tests_cant": "tests use kpckms at the galactic centre, if they use skypath at all", "anchors": ["clustertools/analysis/orbits.py:orbital_path_match", "clustertools/analysis/orbits.py:orbital_path", "clustertools/cluster/operations.py:to_radec", "clustertools/util/units.py:_convert_length"]}
{"id": "C173", "title": "The tail path on the sky", "statement": "tail_path with skypath=True, without dmax and with ntail <= nt, from any linear units and origin, assigns every star to the point of the cluster's orbit (of its centre with from_centre) between -tfinal and tfinal Gyr that is nearest to it in right ascension and declination, divides these times into contiguous bins, and returns for each bin that holds stars its time in the units of the cluster and the sky coordinates of the mean position and velocity of its stars, in the order of time; every star is counted exactly once, there is at least one entry, and the cluster describes the same stars in the same units from the same origin afterwards. tail_path_match with skypath=True, for a cluster in kpc at the galactic centre, matches every star to the nearest entry.", "quantifier": "every cluster in linear units from any linear origin, every flow of a static potential, every number of steps from two and of bins from one, both kinds of bins", "why_tests_cant": "a test checks one cluster; the binning, the nearest points and the round trip through the sky must hold for all", "anchors": ["clustertools/tidaltail/tails.py:tail_path", "clustertools/tidaltail/tails.py:tail_path_match", "clustertools/util/coordinates.py:cart_to_sky", "clustertools/analysis/orbits.py:orbital_path"]}
{"id": "C174", "title": "dmax and the observer of the tail path on the sky", "statement": "With skypath=True, dmax selects the stars within that distance of the path, the entries are seen by the Sun of the cluster (its ro, vo, zo and solar motion), and with ntail > nt the entries are averages over the overlapping windows. VIOLATED: the distance from the path in degrees is compared with dmax in kpc; the entries are computed with the constants of coordinates.py, so that for a cluster with other constants no entry need be where the stars are; with ntail > nt a star is counted only in the first window that holds it.", "quantifier": "every cluster in linear units from any linear origin, every dmax, every pair of observers that see the place of the stars differently", "why_tests_cant": "tests use the default constants and do not check which stars are selected", "anchors": ["clustertools/tidaltail/tails.py:tail_path", "clustertools/tidaltail/tails.py:tail_path_match", "clustertools/util/coordinates.py:cart_to_sky", "clustertools/analysis/orbits.py:orbital_path"]}
{"id": "C175", "title": "Sessions that cross the sky: questions leave no trace", "statement": "Start from a cluster in any linear units and origin, and interleave in any order and number conversions (to any units and origin, to and from the sky) with questions: every analysis function except the core radii, the orbit and tail functions with and without skypath, find_centre, gyrout, and the user's own save_cluster ... return_cluster around any conversions. If the session does not raise, the cluster still describes the same stars, with radii and totals of the rows it shows; each question gives back the units, origin, masses, position, time and rows (on the sky, from the Galactic centre, or from the cluster's position); the labels at the end are those the conversions alone would give; and two sessions with the same conversions end in the same view, whatever was asked in between. (Rows from the cluster's centre are not claimed: the centre wanders on the sky, C162.)", "quantifier": "all clusters in any linear units and origin with aligned non-empty rows and fresh radii; all finite sessions of conversions with analysis on and questions with any arguments; all coordinate maps and flows that do not raise", "why_tests_cant": "the claim is over unbounded interleavings of some forty calls and their arguments in eight linear unit systems and on the sky, and depends on caches, stored orders and saved labels left by every earlier call", "anchors": ["clustertools/cluster/operations.py:save_cluster", "clustertools/cluster/operations.py:return_cluster", "clustertools/cluster/operations.py:to_radec", "clustertools/cluster/operations.py:to_sky", "clustertools/cluster/operations.py:from_radec", "clustertools/analysis/functions.py", "clustertools/analysis/profiles.py", "clustertools/analysis/orbits.py", "clustertools/tidaltail/tails.py"]}
{"id": "C176", "title": "Moving a cluster along its orbit on the sky", "statement": "interpolate_orbits of a cluster on the sky (radec units, origin sky), reached from a linear cluster by any conversions, returns the sky coordinates of every star after the given time (Gyr; 12 Gyr if none is given) on its own orbit, and leaves the cluster as it was. The method stores them: the cluster then describes, on the sky, the stars and the cluster itself that long later, with radii and totals of the new rows, provided galpy's sky map is inverted by galpy and no column of the new rows is all zeros (add_orbit refills those). A linear cluster that has no orbits yet and is moved by interpolate_orbit shows the moved cluster and stars after any later conversions, to the sky and back.", "quantifier": "all clusters in any linear units and origin, all finite sequences of conversions that end on the sky; all times, at least two time steps, all flows and all sky maps that galpy inverts on the stars", "why_tests_cant": "holds for every history of conversions that led to the sky, every time, potential and star list; depends on which of the caches and duplicate coordinate columns each call refreshes", "anchors": ["clustertools/analysis/orbits.py:interpolate_orbits", "clustertools/analysis/orbits.py:_integrate_orbits", "clustertools/analysis/orbits.py:initialize_orbits", "clustertools/cluster/cluster.py:interpolate_orbits", "clustertools/cluster/cluster.py:interpolate_orbit", "clustertools/cluster/cluster.py:add_orbit", "clustertools/cluster/operations.py:to_radec", "clustertools/cluster/operations.py:to_sky"]}
{"id": "C177", "title": "After a move the cluster is at one place", "statement": "After a cluster is moved along its orbit, on the sky or off it, conversions to and from the sky keep the moved cluster. Violated: the orbits kept in the cluster are never updated. A cluster moved by interpolate_orbits on the sky and taken to kpc is back at its old place, stars and all; a cluster that has visited the sky before, moved by interpolate_orbit in linear units and taken to the sky again, shows the old place. On the sky the method interpolate_orbit moves the cluster without its stars (in linear units they move along), and with the origin at the cluster or its centre interpolate_orbits raises.", "quantifier": "all clusters in any linear units, all sequences of conversions to the sky that leave orbits stored, all times, flows and sky maps that galpy inverts", "why_tests_cant": "the violation is proved for every such cluster, history and time; a test would see one stale cache, not that no call refreshes it", "anchors": ["clustertools/analysis/orbits.py:interpolate_orbits", "clustertools/analysis/orbits.py:_integrate_orbits", "clustertools/analysis/orbits.py:initialize_orbits", "clustertools/cluster/cluster.py:interpolate_orbits", "clustertools/cluster/cluster.py:interpolate_orbit", "clustertools/cluster/cluster.py:add_orbit", "clustertools/cluster/operations.py:from_radec", "clustertools/cluster/operations.py:to_radec"]}
{"id": "C178", "title": "Moving in steps is moving at once", "statement": "Calling the method interpolate_orbit for any list of times, one after the other, forwards or backwards, ends with the cluster and all its stars where one move by the sum of the times takes them, in the same units and origin; times that add up to zero bring the cluster back exactly. On the sky the same holds of interpolate_orbits, star by star (although the stored orbits go stale, C177).", "quantifier": "all clusters in linear units in which orbit velocities are right (not pc/Myr, kpc/Gyr, WD) or reached on the sky by any conversions; all finite lists of times of either sign; all potentials whose integration is a flow; sky maps that galpy inverts", "why_tests_cant": "the claim is over lists of calls of any length; an error of one step, a stale position or radius would accumulate", "anchors": ["clustertools/analysis/orbits.py:interpolate_orbit", "clustertools/analysis/orbits.py:interpolate_orbits", "clustertools/cluster/cluster.py:interpolate_orbit", "clustertools/cluster/cluster.py:interpolate_orbits", "clustertools/cluster/cluster.py:add_orbit"]}
{"id": "C179", "title": "Scales given to interpolate_orbit(s): the cluster's own, and on the sky", "statement": "Giving interpolate_orbit or interpolate_orbits the cluster's own ro, vo, zo and solarmotion changes nothing, in the functions and in the methods. On the sky interpolate_orbit uses other scales throughout: the place returned is where the body that at those scales is seen at the cluster's sky position is seen after the given time at the same scales; with no time to move in it is the cluster's sky position. The cluster keeps its stars, units and origin.", "quantifier": "all clusters (own scales); all clusters reached on the sky by any conversions, all positive ro, vo, all sky maps of galpy before and after, all times and potentials", "why_tests_cant": "ranges over all scales, sky maps, histories of conversions and potentials", "anchors": ["clustertools/analysis/orbits.py:interpolate_orbit", "clustertools/analysis/orbits.py:_integrate_orbit", "clustertools/analysis/orbits.py:initialize_orbit", "clustertools/cluster/cluster.py:interpolate_orbit"]}
{"id": "C180", "title": "Scales given to interpolate_orbit(s) off the sky rescale the cluster", "statement": "interpolate_orbit with ro, vo given should integrate the orbit of the cluster from where it is. In linear units it does not: the row of the orbit is made with the cluster's own scales (to_galpy) and read with the given ones, so the position returned is that of a body whose galactocentric distances are the cluster's times ro over the cluster's ro (velocities likewise with vo); a time in galpy's units counts those of the given scales. Moving the cluster by no time with the method takes it, with its stars, to its position times that ratio. Likewise interpolate_orbits for each star; with the origin at the cluster or its centre and no time to move in, the method blows the cluster up by the ratio.", "quantifier": "all clusters in linear units, all positive ro, vo, all times, all potentials whose integration is a map (a flow for the move by no time)", "why_tests_cant": "the ratio is one at the default scales which the tests use; the claim ranges over all scales, states and potentials", "anchors": ["clustertools/analysis/orbits.py:interpolate_orbit", "clustertools/analysis/orbits.py:_integrate_orbit", "clustertools/analysis/orbits.py:initialize_orbit", "clustertools/cluster/cluster.py:interpolate_orbit"]}
