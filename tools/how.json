{
"C01": [
"Ops",
"spec `phys`: labelled cluster \u2192 pc, km/s, Msun, Myr; each call commutes with it"
],
"C02": [
"Ops, History",
"label + `phys` determine the numbers; induction over the calls"
],
"C03": [
"Ops, History",
"as C02"
],
"C04": [
"Ops",
"as C02"
],
"C05": [
"Ops",
"case analysis"
],
"C06": [
"Ops",
"spec `galRows`: galactocentric rows described; each call preserves them"
],
"C07": [
"Ops, History",
"determinacy + induction"
],
"C08": [
"Ops, History",
"spec `world`; induction over interleavings; totality from an invariant"
],
"C09": [
"Ops, History",
"`world` preserved + determinacy; invariant for the stored order"
],
"C10": [
"Grav",
"scaling identity per unit system"
],
"C11": [
"Ops, History",
"spec `Fresh`; induction over histories"
],
"C12": [
"Ops",
"physical binaries preserved; determinacy"
],
"C13": [
"Ops (sky)",
"spec `Describes`: true content against sky or linear rows; induction over all calls"
],
"C14": [
"Ops (sky)",
"sky rows are an invariant; induction"
],
"C15": [
"Ops, History",
"invariant: order sorted in the frame it was made for; induction"
],
"C16": [
"Ops",
"sorted cumulative sums against `IsMassRadius`"
],
"C17": [
"Lagrange",
"as C16, plus restoration (C09)"
],
"C18": [
"Stars",
"spec `Aligned`, `Fits`; induction over calls"
],
"C19": [
"Stars",
"first call: row computation; later calls: general statement of the failure"
],
"C20": [
"Subset",
"mask semantics against `Passes`"
],
"C21": [
"Subset, Tidal",
"heap of masks `Mem`; induction over sequences"
],
"C22": [
"Subset",
"list filtering, composition"
],
"C23": [
"Subset",
"as C22"
],
"C24": [
"Recipes",
"contiguity `Contig`"
],
"C25": [
"Recipes",
"loop invariants of `nbinmaker`"
],
"C26": [
"Recipes",
"partition"
],
"C27": [
"Recipes",
"counting"
],
"C28": [
"Recipes",
"`bincount` as sums over bins"
],
"C29": [
"Recipes",
"field arithmetic"
],
"C30": [
"Recipes",
"minimum over lists"
],
"C31": [
"Recipes",
"monotonicity of real powers"
],
"C32": [
"Coords",
"trigonometric identities"
],
"C33": [
"Energy",
"kernels as folds of updates = pairwise sums; induction"
],
"C34": [
"Energy",
"scaling of kinetic energy"
],
"C35": [
"Centre",
"weighted sums"
],
"C36": [
"Centre",
"measure for termination; explicit diverging family"
],
"C37": [
"Profiles",
"partition + restoration"
],
"C38": [
"Convert",
"unit table of C01; exact set of pairs `VelOk`"
],
"C39": [
"IO",
"simulation between advancing and loading; induction over chains"
],
"C40": [
"IO",
"row by row"
],
"C41": [
"Nbody6",
"encoder in `Spec/Nbody6`, decode\u2218encode = id, induction over records"
],
"C42": [
"IO",
"write then read"
],
"C43": [
"Orbits",
"argmin; triangle inequality; trigonometry"
],
"C44": [
"Tidal",
"spec `TideRun`; monotone iteration, finite measure"
],
"C45": [
"Energy, Virial",
"pair sums, invariance of `world`; the whole function including its conversions of units, and after sessions of calls (C124)"
],
"C46": [
"Energy",
"as C45 + C09"
],
"C47": [
"Recipes",
"counting positions in the sorted list"
],
"C48": [
"Recipes",
"as C28"
],
"C49": [
"Energy",
"invariant over interleavings; explicit racing schedule"
],
"C50": [
"Centre",
"composition of C35/C67 with `to_centre`"
],
"C51": [
"Profiles",
"C37 divided by shell volumes"
],
"C52": [
"Profiles",
"statistics over bins"
],
"C53": [
"Profiles",
"heap of masks, returned bins"
],
"C54": [
"Profiles",
"half-mass radius of C16"
],
"C55": [
"Vcirc",
"cumulative sums over sorted radii"
],
"C56": [
"IO",
"scales of C01"
],
"C57": [
"Nbody6",
"arithmetic"
],
"C58": [
"Nbody6",
"list lengths"
],
"C59": [
"Orbits",
"flow laws; equally spaced times"
],
"C60": [
"Tails",
"bins of C25/C26 over path times, means over stars"
],
"C61": [
"Tails",
"matrix identities"
],
"C62": [
"Tails",
"C43 \u2218 C60"
],
"C63": [
"Ops (sky)",
"explicit computation"
],
"C64": [
"Ops, Lagrange",
"witnesses"
],
"C65": [
"Stars",
"totality from `Aligned`"
],
"C66": [
"Coords",
"C09"
],
"C67": [
"Centre",
"loop simulation (equivariance), restoration"
],
"C68": [
"IO",
"computation of the advance"
],
"C69": [
"Nbody6",
"computation"
],
"C70": [
"Rotation",
"pointwise algebra (cylindrical velocities), frame lemmas; computation of the violated branch"
],
"C71": [
"Relax",
"`pcStart` leaves a fresh cluster whose `rm` is the half-mass radius (order invariant); algebra; computation"
],
"C72": [
"Relax",
"sign of the logarithm; order invariant; a concrete cluster; computation"
],
"C73": [
"Rotation",
"computation of the branch"
],
"C74": [
"Neighbours",
"case analysis of a valid two-neighbour answer"
],
"C75": [
"Neighbours",
"computation; pigeonhole on the two entries of the answer"
],
"C76": [
"Neighbours",
"densities scale with the units; weighted means; uniqueness in general position; `return_of_world`"
],
"C77": [
"Neighbours",
"positive weights give a positive density centre, which is stored"
],
"C78": [
"NumberDensity",
"bins from C25/C26; the mask dx>0 selects exactly the non-empty bins; normal equations give the unique minimum (Lemmas/Fit)"
],
"C79": [
"MassFunction",
"selection as a mask (C40), bins of the profile machinery, weights summed per bin, least squares, scaling lemmas for the bin makers"
],
"C80": [
"MassFunction2",
"the empty bin gives a zero density, whose logarithm is not finite; the method unpacks seven of eight values"
],
"C81": [
"VirialCrit2",
"sorted order gives the cumulated mass within each star (C05 machinery); argmin of the distance; the neighbour chosen by the sign encloses the density; conversion by C38"
],
"C82": [
"VirialCrit2",
"explicit evaluation of the interpolation at the edges and on rising stretches"
],
"C83": [
"DensityRadius4",
"the profile in galpy units is the physical profile scaled (equal-number bins by ranks scale); the reading of the profile commutes with scaling; profile and reading are unique"
],
"C84": [
"DensityRadius4",
"as C83; last bin not below and first bin below are neighbours when the profile stays below"
],
"C85": [
"DensityRadius4",
"exact description of the line the code extrapolates, and comparison with the first fall"
],
"C86": [
"Interp",
"the orbit starts at the physical galactocentric place (to_galpy and back restore the cluster, cylindrical coordinates round-trip), linspace ends at the time, lengths convert back; to_cluster, add_orbit and the way back compose to a displacement of the world"
],
"C87": [
"Interp",
"exact result of the method, compared with the centre's orbit"
],
"C88": [
"Interp2",
"as C86, for the list of stars"
],
"C89": [
"Interp3",
"exact state left behind; example with force-free motion"
],
"C90": [
"Interp3",
"Python's binding of arguments to parameters is modelled"
],
"C91": [
"Eta",
"masks of the subset are the English selection; nbinmaker gives contiguous equal-number bins; the fit satisfies the normal equations"
],
"C92": [
"Eta2",
"exact runs of the model"
],
"C93": [
"Eta3",
"calculus"
],
"C94": [
"Eta3",
"C91's run with a fit as parameter; C17's Lagrange radii are unique"
],
"C95": [
"Eta3",
"exact runs of the model"
],
"C96": [
"SlopeProf2",
"each radial mask is the English bin; C78's mass function for it; induction over the bins keeps the cluster"
],
"C97": [
"SlopeProf3",
"exact runs of the model"
],
"C98": [
"SlopeProf4",
"the radius limits of the inner call are the English shell; C91's and C94's fits; induction over the bins"
],
"C99": [
"SlopeProf5",
"exact runs of the model"
],
"C100": [
"Gyr2",
"token-level model of the reader; inductive specification of a file; invariant (the unread lines are a file with the remaining snapshots) by induction over the calls"
],
"C101": [
"Gyr3",
"exact runs of the model for every file and history; concrete file"
],
"C102": [
"Gyr4",
"block arithmetic of a regular file by induction; invariant over the calls"
],
"C103": [
"Gyr5",
"exact runs of the model for every regular file; concrete file"
],
"C104": [
"Gyr6",
"files that begin with snapshots and go on with a cut header; the invariant of C100 with a rest of the file"
],
"C105": [
"Gyr6",
"exact runs of the model for every crash point; concrete files"
],
"C106": [
"GyrOut",
"the conversions as a history (C09), world meaning of the columns"
],
"C107": [
"GyrOut",
"exact runs; comparison with the world"
],
"C108": [
"FortOut",
"the conversions as a history; world meaning of the rows; change of scales under C45/C46"
],
"C109": [
"FortOut2",
"exact runs; concrete clusters"
],
"C110": [
"OrbitArg",
"exact run; orbital position compared in physical units; centre finding preserves the stars"
],
"C111": [
"OrbitArg",
"exact runs; comparison with the physical position"
],
"C112": [
"Nbody6pp2",
"bytes decoded by induction over the file; induction over advances"
],
"C113": [
"Nbody6pp2",
"exact runs on arbitrary files"
],
"C114": [
"AstropyTable",
"column search by cases; add_stars on a new cluster; settling preserves stars"
],
"C115": [
"AstropyTable",
"exact runs"
],
"C116": [
"Galpydf",
"add_stars on a new cluster; settling preserves stars; phys of the result"
],
"C117": [
"Galpydf",
"exact runs"
],
"C118": [
"Concentration",
"linear interpolation from the nearest entry lies on the broken line; the line is strictly increasing, hence invertible; the tables are checked by the kernel in integers"
],
"C119": [
"Concentration",
"exact runs: index -1 wraps to the end of the table"
],
"C120": [
"Limepy",
"the row found is the unique one with that name; C118 for the potential"
],
"C121": [
"Limepy",
"exact runs of the lookup"
],
"C122": [
"Limepy",
"the conversions are steps that preserve the world (C01\u2013C09)"
],
"C123": [
"Limepy",
"exact runs"
],
"C124": [
"Session",
"relational invariant (described world, scales, radial order) through every function body by a bind rule for results; return_cluster restores the data (C09); induction on the session"
],
"C125": [
"Stored",
"induction on the calls; C71 and C81 give the ratio"
],
"C126": [
"Nbody6ppEv3",
"scatter of distinct addresses by induction on the lines; alignment with C112; induction on advances"
],
"C127": [
"Nbody6ppEv3",
"from the description of the arrays in C126"
],
"C128": [
"Nbody6ppH5d",
"induction on the history from the end; scales handed from group to group survive conversions because the physical centre and scales do (C01)"
],
"C129": [
"Nbody6ppH5e",
"from the description of the cluster in C128, and direct evaluation for the missing cases"
],
"C130": [
"SkyFirst",
"invariant of the construction by induction over the add_stars calls, then the sky invariant of C13 (with orbits not yet cached) by induction over the conversions"
],
"C131": [
"SkyFirst2",
"explicit result of leaving the sky for the first time"
],
"C132": [
"Amuse",
"columns per unit label, the add_stars lemma for whole columns, the settling lemma for galpy orbits; induction over the advances with the remembered options as invariant"
],
"C133": [
"Amuse",
"explicit evaluation, induction over the advances"
],
"C134": [
"Ids",
"numpy arrays with element types and rounding to 53 bits; induction over the calls"
],
"C135": [
"Ids",
"conversion to float64 gives an even number above 2^53"
],
"C136": [
"Plots",
"figure = what is handed to plt.plot; the invariant of sky histories (C13) extended to return_cluster; induction over the session"
],
"C137": [
"Plots",
"explicit evaluation"
],
"C138": [
"SkyPlane",
"unit vectors of spherical astronomy as specification; trigonometric identities; the sky-state invariant over the history"
],
"C139": [
"SkyPlane",
"explicit evaluation against the unit vectors"
],
"C140": [
"Tapered",
"bins as for C79; 10**log10 is the identity on the positive means and densities; curve_fit is a parameter"
],
"C141": [
"Tapered",
"explicit runs for arbitrary clusters"
],
"C142": [
"LimepySample",
"limepy and its sampler are parameters; add_stars on an empty cluster (C114) and find_centre on a cluster without units keep the stars; then the end of _get_limepy (C122)"
],
"C143": [
"LimepySample",
"equality of the results of the calls for arbitrary values of the keyword"
],
"C144": [
"Methods",
"induction over the session; each method gives the cluster back (C124), so only conversions and the last call of a method matter"
],
"C145": [
"Methods",
"equality of the calls with and without the keyword, and two stars for which the virial radii differ"
],
"C146": [
"Evolution",
"induction over the calls: the columns are the columns of one list of rows"
],
"C147": [
"Evolution",
"assignment at distinct places (induction over the places), then the lengths of the columns"
],
"C148": [
"Crash",
"every analysis function rewritten in a monad that records the cluster after each conversion (proved to return the same values); then an invariant along the recorded clusters, call by call, and induction over the session"
],
"C149": [
"Crash",
"the recorded clusters of the call, computed; the statements of to_kpckms one by one (all of them together are the conversion)"
],
"C150": [
"Saved",
"invariant over sessions: the object describes the same world and the saved values are those of some description of it; the saves of the analysis functions are left nondeterministic among the clusters on the way"
],
"C151": [
"Saved",
"the saved values followed through the session"
],
"C152": [
"Mutate",
"induction over the session; each changing call yields a described world with the same places, for which the stored order is still an order"
],
"C153": [
"Mutate",
"the order followed through the calls, for all clusters; a concrete session of public calls"
],
"C154": [
"Mutate2",
"C152_session gives two worlds with the same masses and places; each answer is then characterised by its specification (C17, C45, C71, C74), which only mentions masses and places and has one solution."
],
"C155": [
"PathMethods",
"The methods are modelled with the attributes they set (Model/PathMethods); each call is one of the observing calls of C124 on the cluster, and an induction over the session keeps every attribute no call sets. r_tail and v_tail by the preserved scalar products of C61."
],
"C156": [
"PathMethods2",
"The stored orbit computed for every input, to_radec followed with it, the resulting sky position given in closed form; a concrete cluster where it is not the cluster's position. The two others as equations for all inputs."
],
"C157": [
"Light",
"The half-light block of analyze is modelled over the cluster model; the radius is characterised by IsMassRadius (as for C22), with luminosities as weights. For sessions the order invariant of C124 gives a right order after every history."
],
"C158": [
"Light",
"Fewer luminosities than stars: the order contains an index out of range, for every order. The stale projected order by a cluster of two stars."
],
"C159": [
"Snapout",
"np.column_stack is modelled with its requirement of equal lengths; the rows are computed for arbitrary arrays of equal length, and the table read back agrees with that of C42 on the nine columns of the layout."
],
"C160": [
"Snapout",
"By cases on the options, for every cluster; the contradictory row for every moving star and every velocity scale other than 1."
],
"C161": [
"SkyAnalysis",
"The invariant SkyInv of C33 is shown to be re-established by return_cluster from any cluster satisfying the invariant of the calls, on the sky or not."
],
"C162": [
"SkyAnalysis",
"The half-mass radius in the frame where the function works is computed for every cluster with the mass-radius lemmas; the drift of the centre is by induction on the number of calls."
],
"C163": [
"SkyTidal",
"The cluster in galpy units is computed from the sky invariant; the arc tangent of the conversion is that of the subtended angle for every positive distance."
],
"C164": [
"SkyTidal",
"The loop of the iteration is run on the galactocentric radii: no star is inside, the mass and the next estimate are zero."
],
"C165": [
"CentreMethods",
"By the refinement of the loop to the published iteration (C36) and the lemmas about save and return; to_centre by C50."
],
"C166": [
"CentreMethods",
"The shrinking spheres stop at once when there are not enough stars; the density centre is the function's for every neighbour query."
],
"C167": [
"SubReset",
"The selected rows (C22), the conversions to pc and km/s and back as relations on the described world, the virial and half-mass radius in world terms."
],
"C168": [
"SubReset",
"The keyword reset_nbody_radii goes under the name radius into **kwargs; the keywords are given twice; shown for every cluster, with the object after the call."
],
"C169": [
"SubCentre",
"The selected rows (C22), the shrinking spheres as a relation (C36), a stored centre moves no star (C152), then C167."
],
"C170": [
"SubCentre",
"The world of the result computed from that of the parent, for every cluster."
],
"C171": [
"SkyPath",
"to_radec from any linear state gives the sky rows of the true stars (C13), the nearest point as in C43, return_cluster from the sky by the invariant of all histories; the path from the flow laws as in C59."
],
"C172": [
"SkyPath",
"The reported numbers computed for every cluster of the kind; sky clusters by the invariant of histories (C161)."
],
"C173": [
"SkyTail",
"the run of tail_path as in C60 with the stars matched on the sky as in C171; the round trip through the sky by the invariant of histories; means by the counting lemmas of C60."
],
"C174": [
"SkyTail",
"the selection and the entries are computed for all clusters; the observer: stars at one place and any two coordinate maps that differ there."
],
"C175": [
"SkySession",
"the invariant `Inv` of C13 (linear state describing S with the caches of S, or sky state) together with fresh radii is carried through every step of every analysis function by one tactic; return_cluster from any such state restores the labels (`return_lin`, `return_sky`); two such states with the same labels show the same rows; the labels of conversions are a table proved call by call"
],
"C176": [
"InterpSky",
"the sky invariant `SkyInv` of C13 gives the columns, galpy's inverse gives the orbits' starting rows, a unit computation turns natural time and rows into Myr and pc; `return_cluster` and `analyze` keep the core of the state; `method_run` (C86) and the linear invariant with empty caches give the first visit"
],
"C177": [
"InterpSky",
"the cached orbits are traced through the methods (`rest` of the state is kept by every call), then `from_radec` and `radecFill` are evaluated on the stale caches"
],
"C178": [
"InterpSteps",
"induction over the list: each step is C86 / C176, whose end state again meets the hypotheses; the group law of the flow in physical units (`orbitAt_add`) and composition of displacements add the steps up"
],
"C179": [
"InterpScales",
"the model of the call takes galpy twice, at the cluster's scales and at the given ones; equality by computation for the same scales; on the sky the invariant of C172 gives the sky position, and the given time and row conversions compose to the physical orbit"
],
"C180": [
"InterpScales",
"refinement as for C86, with the time, row and length conversions at the given scales; natural units of the cluster at its scales are those of the rescaled body at the given ones (`natural_rescaled`)"
]
}