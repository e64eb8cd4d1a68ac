#!/usr/bin/env python3
"""Writes /verif/properties.jsonl (one property per line)."""
import json, os
P = []
def add(title, statement, quantifier, why, anchors):
    P.append(dict(id="C%02d" % (len(P) + 1), title=title, statement=statement,
                  quantifier=quantifier, why_tests_cant=why, anchors=anchors))

# ---- WCxf data layer -------------------------------------------------------
add("WC.translate contract",
    "wc.translate(b) returns wc itself when b is already its basis. Otherwise, if a translator (eft, basis, b) is registered, the result has the same EFT, basis b, the same scale, contains exactly the non-zero entries the translator function produced (read back through .dict), and never contains a zero; if none is registered a ValueError is raised. The sectors argument reaches the translator iff it is not None.",
    "every WC object, target basis, registry of translator functions, parameters and sectors",
    "translator registry and coefficient dictionaries are unbounded", ["wilson/wcxf/classes.py:WC.translate", "wilson/wcxf/classes.py:Translator.translate"])
add("WC.match contract",
    "wc.match(E, b) returns wc itself when (E, b) is its own EFT and basis; otherwise with a registered matcher the result has EFT E, basis b, the same scale, exactly the non-zero entries of the matcher's output; with none a ValueError is raised.",
    "every WC object, target EFT and basis, registry of matchers, parameters",
    "unbounded registry and dictionaries", ["wilson/wcxf/classes.py:WC.match", "wilson/wcxf/classes.py:Matcher.match"])
add("Values survive the WCxf value encoding",
    "Building a WC from WC.dict2values(d) and reading .dict gives back d: same keys in the same order, same complex values; the encoding uses a Re/Im record exactly for the values with non-zero imaginary part; wc[k] is d[k] for present keys and 0 for absent keys; a Re/Im record with a missing part reads as 0 there.",
    "every dictionary of complex coefficients and every key", "infinitely many dictionaries", ["wilson/wcxf/classes.py:WC.dict2values", "wilson/wcxf/classes.py:WC._to_number", "wilson/wcxf/classes.py:WC.dict", "wilson/wcxf/classes.py:WC.__getitem__"])
add("WC.validate accepts exactly the known coefficients",
    "wc.validate() succeeds iff the EFT is registered, the basis is registered for that EFT and every coefficient name of wc occurs in some sector of that basis; hence Wilson(...) can only be constructed with coefficients of the basis.",
    "every registry and WC object", "unbounded registries", ["wilson/wcxf/classes.py:WC.validate", "wilson/wcxf/classes.py:Basis.all_wcs", "wilson/classes.py:Wilson.__init__"])
add("Named-instance registry is last-writer-wins",
    "After any sequence of registrations, deletions and clear_all calls, Cls[name] returns the instance registered last under that name if it was not deleted since, and fails otherwise; operations under one name never affect lookups of another.",
    "every history of registrations, deletions, clears", "all histories", ["wilson/wcxf/classes.py:NamedInstanceClass"])
add("Child bases inherit sectors",
    "A basis file with a parent gets, for each sector, the child's own definition if it has one and else the parent's; the parent basis is unchanged; a basis with unknown parent raises ValueError. (Expected: a failed load leaves the registry unchanged. The code violates this: the broken basis stays registered.)",
    "every registry, parent, child and sector table", "unbounded registries", ["wilson/wcxf/classes.py:Basis.__init__"])
add("Basis.validate detects unknown sectors and duplicates",
    "basis.validate() succeeds (given LaTeX compiles) iff the EFT is registered, every sector name of the basis is a sector of the EFT and no coefficient name occurs in two sectors.",
    "every basis and registry", "unbounded tables", ["wilson/wcxf/classes.py:Basis.validate"])
add("Dump/load round trip of WCxf files",
    "Loading what dump wrote gives a WC with the same EFT, basis, scale, values and extra metadata attributes; attributes whose name begins with an underscore (caches, hash) are never written.",
    "every WC object, both formats (for an arbitrary lossless serialiser)", "all files", ["wilson/wcxf/classes.py:WCxf.dump", "wilson/wcxf/classes.py:WCxf.load"])
# ---- options ---------------------------------------------------------------
add("set_option is all-or-nothing and local",
    "set_option(k, v) with a key/value accepted by the schema makes get_option(k) return the coerced v, changes no other option, and empties the result cache; with an unknown key or rejected value it raises and leaves options, defaults and cache as they were.",
    "every option state, key and value", "all states and values", ["wilson/classes.py:ConfigurableClass.set_option", "wilson/classes.py:ConfigurableClass.get_option", "wilson/classes.py:Wilson._option_schema"])
add("Instances do not share options",
    "Over any interleaving of instance creations, set_option on instances and set_default_option on the class: an instance's option equals the last value successfully set on that instance, or else the class default at the time the instance was created; later default changes never affect it.",
    "every history over any number of instances", "all interleavings", ["wilson/classes.py:ConfigurableClass"])
add("Deprecated 'delta' is renamed to 'gamma'",
    "Setting option parameters with a key 'delta' stores its value under 'gamma' and no 'delta', overriding a simultaneously given 'gamma'; every other parameter is kept. (Noteworthy: the caller's dictionary itself is modified.)",
    "every parameter dictionary", "all dictionaries", ["wilson/classes.py:ConfigurableClass.set_option", "wilson/classes.py:ConfigurableClass.set_default_option"])
add("Effective parameters are defaults overridden by user values",
    "The parameters used for running, translation and matching give, for each name, the user-set value if there is one and else the package default; the matching parameters additionally carry loop_order equal to option smeft_matching_order, whatever the user's dictionary contains.",
    "every option state and parameter name", "all states", ["wilson/classes.py:Wilson.parameters", "wilson/classes.py:Wilson.matching_parameters"])
# ---- match_run ---------------------------------------------------------------
add("match_run caching is transparent",
    "For any history of match_run, set_option and clear_cache calls on an instance, each match_run(sectors='all') returns what a freshly created instance with the same coefficients and current options returns. (For restricted sectors this is violated by the code: SMEFT-to-SMEFT results computed for a sector tuple are stored under 'all'.)",
    "every history of calls, every physics backend", "all histories", ["wilson/classes.py:Wilson.match_run", "wilson/classes.py:Wilson._get_from_cache", "wilson/classes.py:Wilson._set_cache"])
add("match_run returns the requested scale, EFT and basis",
    "Whenever match_run(scale, eft, basis) returns, the result's scale, EFT and basis are the requested ones - from a fresh or cached state.",
    "every input, option state, history and backend", "all inputs and histories", ["wilson/classes.py:Wilson.match_run"])
add("match_run's supported transitions",
    "match_run raises a ValueError for exactly these EFT pairs: input EFT outside {SMEFT, WET, WET-4, WET-3} (unless nothing has to be done or only a translation), and runs upward in EFT (WET-4 to WET, WET-3 to WET-4, WET to SMEFT ...) or to an EFT that is not SMEFT/WET/WET-4/WET-3; all downward transitions succeed if the backend calls do.",
    "every pair of EFT names, every backend that does not itself fail", "all strings", ["wilson/classes.py:Wilson.match_run"])
add("match_run matches at the configured thresholds in order",
    "The physics calls made by an uncached match_run are exactly: run to smeft_matchingscale and match SMEFT to WET; run to mb_matchingscale and match WET to WET-4; run to mc_matchingscale and match WET-4 to WET-3; run to the target scale - restricted to the EFTs between input and output, each at the option's current value.",
    "every input/output EFT, option state", "all states", ["wilson/classes.py:Wilson.match_run"])
add("User parameters reach every translation",
    "Every basis translation in match_run is given the instance's effective parameters. (Violated: the final translation of SMEFT-to-SMEFT running is given none, so a user CKM is ignored there; and WET running never receives user parameters.)",
    "every option state and transition", "all states", ["wilson/classes.py:Wilson.match_run", "wilson/run/wet/classes.py:WETrunner.__init__"])
add("Wilson hash reflects options",
    "The documented contract: the hash of a Wilson instance changes when options are modified. (Violated: only option names enter the hash.)",
    "every option state", "all states", ["wilson/classes.py:Wilson.__hash__"])
# ---- EFT util ----------------------------------------------------------------
add("symmetrize produces the operator symmetry",
    "For every symmetry class, the array returned by the class's symmetrization satisfies all index (anti)symmetry and hermiticity relations of that operator class, for arbitrary input arrays.",
    "every complex 3x3 / 3x3x3x3 input array, every class", "uncountably many arrays; relations couple 81 entries", ["wilson/util/common.py:EFTutil.symmetrize", "symmetrize_2 ... symmetrize_9"])
add("symmetrize is a projection that keeps the non-redundant entries",
    "Symmetrizing twice equals symmetrizing once; an array that already has the symmetry is returned unchanged; the entries with the non-redundant flavour indices are returned as given (imaginary parts of self-conjugate entries removed).",
    "every input array, every class", "uncountably many arrays", ["wilson/util/common.py:EFTutil.symmetrize"])
add("Symmetry factors count index orbits",
    "The scale factor of an array element is the number of distinct elements related to it by the class's index permutations.",
    "every element of every class", "must hold for the whole table", ["wilson/util/common.py:EFTutil._get_scale_dict"])
add("Class-8 scaling is invertible",
    "scale_8 and unscale_8 are mutually inverse on the non-redundant entries of class-8 (qqql-type) arrays and respect the operator relation.",
    "every class-8 array", "uncountably many arrays", ["wilson/util/common.py:EFTutil.scale_8", "unscale_8"])
add("WCxf dictionary to symmetrized arrays and back",
    "Converting a dictionary of non-redundant coefficients to symmetrized arrays and back returns every coefficient unchanged.",
    "every dictionary over the basis", "uncountably many dictionaries", ["wilson/util/common.py:EFTutil.wcxf2arrays_symmetrized", "arrays2wcxf_nonred"])
add("Flattening for the ODE solver is lossless",
    "C_array2dict(C_dict2array(C)) = C for every dictionary with all keys in canonical order and shape, and C_dict2array(C_array2dict(y)) = y for every vector of the right length.",
    "every key list with shapes, every dictionary, every vector", "unbounded", ["wilson/util/common.py:EFTutil.C_array2dict", "C_dict2array"])
add("Padding to 3x3 is lossless",
    "pad_C followed by unpad_C is the identity on arrays with two up-type generations, and padded entries do not affect the unpadded ones.",
    "every dictionary of arrays", "uncountable", ["wilson/util/common.py:EFTutil.pad_C", "unpad_C"])
add("WCxf names address array entries uniquely",
    "arrays2wcxf and wcxf2arrays are mutually inverse: every array entry is found under exactly one name Name_ij.. and converting back restores the arrays; entries missing from the dictionary become 0.",
    "every dictionary of arrays", "uncountable", ["wilson/util/common.py:EFTutil.arrays2wcxf", "wcxf2arrays"])
# ---- flavour -----------------------------------------------------------------
add("Flavour rotation is a group action",
    "Rotating by the identity does nothing and rotating by U then by U' equals rotating by U U', for all coefficients; in particular rotating by unitary U then U-dagger is the identity.",
    "every set of coefficient arrays, all 3x3 matrices", "uncountable", ["wilson/util/smeft_warsaw.py:flavor_rotation", "wilson/run/smeft/classes.py:SMEFT._flavor_rotation"])
add("Flavour rotation preserves operator symmetries",
    "If the arrays satisfy the hermiticity/permutation relations of their class, so do the rotated arrays, for arbitrary rotation matrices.",
    "every symmetric array, all 3x3 matrices", "uncountable", ["wilson/util/smeft_warsaw.py:flavor_rotation"])
add("Warsaw and Warsaw-up translations are mutually inverse",
    "With a unitary CKM matrix, translating Warsaw to Warsaw up and back with the same parameters returns the same coefficients.",
    "every coefficient dictionary, every unitary CKM matrix", "uncountable", ["wilson/translate/smeft.py:warsaw_to_warsaw_up", "warsaw_up_to_warsaw"])
add("Rotation to the down mass basis is invertible and covariant",
    "rotate_down with CKM V acts on exactly the left-handed down indices (conjugated on barred ones), leaves other coefficients alone, is undone by V-dagger for unitary V.",
    "every WET coefficient set and matrix", "uncountable", ["wilson/util/wet_jms.py:rotate_down"])
# ---- JMS ---------------------------------------------------------------------
add("JMS arrays are completed by symmetry",
    "For the JMS classes, the array built from non-redundant entries contains each given entry at its index and satisfies the class's symmetry everywhere it is determined.",
    "every assignment of the non-redundant entries", "uncountable", ["wilson/util/wet_jms.py:JMS_to_array"])
add("Redundant JMS names are mapped consistently",
    "symmetrize_JMS_dict maps a redundant coefficient name to the equivalent basis name with the correctly conjugated or sign-flipped value, so that filling an array from the result reproduces the original entry.",
    "every dictionary over arbitrary JMS names", "all dictionaries", ["wilson/util/wet_jms.py:symmetrize_JMS_dict"])
add("JMS symmetry-factor scaling is invertible",
    "scale_dict_wet and unscale_dict_wet are mutually inverse and multiply by the orbit size of the index under the class's current-exchange symmetry.",
    "every coefficient dictionary", "uncountable", ["wilson/util/wet_jms.py:scale_dict_wet", "unscale_dict_wet"])
# ---- translators -------------------------------------------------------------
add("Higgs-Warsaw-up and Warsaw-up translations are inverse",
    "Translating between the Higgs-like basis and the Warsaw-up basis and back, in both orders, returns the original coefficients for every unitary CKM matrix and couplings with g != g'.",
    "every coefficient set, unitary CKM, nondegenerate couplings", "uncountable", ["wilson/translate/smeft_higgs.py:higgslike_to_warsaw_up", "warsaw_up_to_higgslike"])
add("Delta F=2 translations are inverse",
    "JMS to Bern and back, and Bern to flavio and back, return the original Delta F=2 coefficients for every flavour combination.",
    "every coefficient set, all four flavour sectors", "uncountable", ["wilson/translate/wet.py:_JMS_to_Bern_I", "_Bern_to_JMS_I", "_BernI_to_Flavio_I", "_FlavioI_to_Bern_I"])
add("Charged-current translations are inverse",
    "JMS to Bern and back and Bern to flavio and back return the original charged-current coefficients for every flavour combination (with G_F and V_ij nonzero).",
    "every coefficient set and flavour combination", "uncountable", ["wilson/translate/wet.py:_JMS_to_Bern_II", "_Bern_to_JMS_II", "_BernII_to_Flavio_II", "_FlavioII_to_BernII"])
add("Four-quark translations are inverse",
    "Translating four-quark coefficients that change flavour from the JMS to the Bern or flavio basis and back, from the Bern to the JMS or flavio basis and back, and from the flavio to the JMS or Bern basis and back returns the original coefficients, for all flavour combinations both bases contain.",
    "every coefficient set and sector", "uncountable", ["wilson/translate/wet.py:_JMS_to_Fierz_III_IV_V", "_Fierz_to_JMS_III_IV_V", "_Fierz_to_Bern_III_IV_V", "_Bern_to_Fierz_III_IV_V"])
add("Semileptonic and dipole translations are inverse",
    "Translations of semileptonic, neutrino and dipole coefficients between the JMS, Bern and flavio bases are mutually inverse where both directions exist (with nonzero normalisation factors). (Violated: tensor coefficients and some lepton flavour violating ones are lost or altered on the way through the flavio or Bern basis.)",
    "every coefficient set and flavour combination", "uncountable", ["wilson/translate/wet.py:JMS_to_Fierz_lep", "Fierz_to_JMS_lep", "Fierz_to_Bern_lep", "Bern_to_Fierz_lep", "Fierz_to_Flavio_lep", "Flavio_to_Fierz_lep", "*_nunu", "*_chrom"])
add("Table-driven translations are lossless",
    "The flavio/JMS LFV, nunull and flavour-conserving tables and the FlavorKit/JMS tables are injective on their target names, so translating forth and back by them is the identity on the covered coefficients.",
    "every coefficient dictionary", "whole-table statement over all dictionaries", ["wilson/translate/wet.py:_JMS_to_Flavio_VII", "FlavorKit_to_JMS", "JMS_to_FlavorKit", "wilson/data/*.json"])
add("EOS output is real where its names say Re/Im",
    "Coefficients exported to EOS under a name Re{..} or Im{..} are real numbers equal to the real/imaginary part of the coefficient in EOS normalisation. (Violated: parts are taken before multiplying by the complex CKM prefactor.)",
    "every coefficient set", "uncountable", ["wilson/translate/wet.py:Fierz_to_EOS_lep", "_Fierz_to_EOS_V", "Fierz_to_EOS_chrom"])
add("FormFlavor export is faithful",
    "Exporting to FormFlavor gives, for each process, coefficients that depend only on the JMS coefficients of that process and on all of them, with uniform conjugation for D mixing and lepton dipoles normalised by the electric charge. (Violated in three places.)",
    "every coefficient set", "uncountable", ["wilson/translate/wet.py:_BernI_to_FormFlavor_I", "JMS_to_FormFlavor_lep", "JMS_to_FormFlavor_chrom"])
# ---- SMEFT running -----------------------------------------------------------
add("SMEFT beta functions are flavour covariant",
    "Under a U(3)^5 rotation of all SM parameters and Wilson coefficients, each beta function rotates like the coefficient itself. (Violated by one term of the dphi beta function.)",
    "every parameter point, all unitary 3x3 matrices, every coefficient", "uncountable; 1800 lines of formulas", ["wilson/run/smeft/beta.py:beta"])
add("SMEFT beta functions are linear in the dimension-6 coefficients",
    "For fixed SM parameters the beta functions of the Wilson coefficients are real-linear in the Wilson coefficients: no dim-6 coefficient is generated from none, and contributions superpose.",
    "every SM point, all real combinations of coefficient sets", "uncountable", ["wilson/run/smeft/beta.py:beta"])
add("SMEFT running conserves baryon and lepton number",
    "B- and L-conserving coefficients get no contribution from B- or L-violating ones at linear order and conversely: the beta functions commute with global phase rotations of baryon and lepton number.",
    "every parameter point and phase", "uncountable", ["wilson/run/smeft/beta.py:beta"])
add("Without new physics only SM parameters run",
    "With newphys=False all Wilson-coefficient beta functions are zero and the SM beta functions are the SM ones evaluated with the same Wilson coefficients.",
    "every parameter point", "uncountable", ["wilson/run/smeft/beta.py:beta", "beta_array"])
add("Leading-log running",
    "Leading-log evolution to the same scale is the identity; out-and-back shifts cancel to first order: the change is exactly beta(C_in)/(16 pi^2) log(mu_out/mu_in) for every key, all computed from the same input point.",
    "every parameter point and pair of positive scales", "uncountable", ["wilson/run/smeft/rge.py:smeft_evolve_leadinglog"])
add("Higgs potential parameters conversion is inverse",
    "Converting (v, M_h) to (m2, Lambda) and back returns (v, M_h) whenever the physical branch conditions hold, and back-conversion succeeds exactly on positive v^2, M_h^2.",
    "every v, M_h > 0 and coefficients", "uncountable", ["wilson/run/smeft/smpar.py:m2Lambda_to_vMh2", "vMh2_to_m2Lambda"])
add("SMEFT gauge-coupling extraction inverts the physical relations",
    "The couplings set from the physical inputs in smeftpar reproduce those inputs (M_W, G_F, M_h, alpha_s, alpha_e, masses and mixing) when re-extracted by smpar. The extracted Z mass and alpha_e are the mass and the coupling of the physical Z and photon, the eigenstates of the kinetic and mass matrices, up to second order in phiWB and phiD.",
    "every coefficient set with nonvanishing normalisation", "uncountable", ["wilson/run/smeft/smpar.py:smeftpar", "smpar", "get_gpbar"])
# ---- WET running -------------------------------------------------------------
add("WET running is linear and sector-closed",
    "Running a sector uses only that sector's coefficients; the result is linear in them; the result for a sector does not depend on which other sectors are requested.",
    "every coefficient set, requested sector tuple, evolution backend", "uncountable; all subsets", ["wilson/run/wet/rge.py:run_sector", "wilson/run/wet/classes.py:WETrunner.run"])
add("WET running to the same scale is the identity; QCD running composes",
    "With equal input and output couplings the evolution is the identity on the sector's coefficients, and pure-QCD evolution from a to b to c equals evolution from a to c.",
    "every sector, diagonalisable ADM, coefficients, scales", "uncountable", ["wilson/run/wet/rge.py:getUs", "getUe", "run_sector"])
add("Disabling QCD keeps QED running",
    "With qcd_order=0 and qed_order=1 the QED part still runs. (Violated: the QED evolution is evaluated at eta_s=1 where it vanishes identically.)",
    "every sector and coefficients", "uncountable", ["wilson/run/wet/rge.py:run_sector", "getUe"])
add("Reduced-flavour ADMs keep rows and names aligned",
    "In WET-4 and WET-3 the coefficients kept are exactly those existing in the basis, in order, and row/column i of the reduced anomalous-dimension matrix is that of the i-th kept coefficient.",
    "every basis content", "unbounded", ["wilson/run/wet/rge.py:get_permissible_wcs", "run_sector", "admeig"])
add("WETrunner.run output contract",
    "The output of run contains only non-zero coefficients of the EFT's JMS basis belonging to requested sectors, with the requested scale; coefficients of RG-invariant sectors are unchanged.",
    "every WC, scale, sectors, backend", "uncountable", ["wilson/run/wet/classes.py:WETrunner.run", "_run_dict"])
# ---- matching ----------------------------------------------------------------
add("Tree matching of vanishing coefficients vanishes",
    "Matching the SMEFT with all Wilson coefficients zero gives all WET coefficients zero, at tree and one-loop order, for all parameter values.",
    "every parameter set", "uncountable", ["wilson/match/smeft_tree.py:match_all_array", "wilson/match/smeft_loop.py:match_all_array"])
add("Tree matching preserves hermiticity and exchange symmetry",
    "If the SMEFT arrays satisfy the symmetry relations of their classes then the matched WET arrays satisfy the relations of the JMS classes.",
    "every symmetric SMEFT coefficient set and parameter set", "uncountable", ["wilson/match/smeft_tree.py:_match_all_array"])
add("Tree matching conserves baryon and lepton number and is contact-local",
    "Baryon-number violating WET coefficients depend only on baryon-number violating SMEFT coefficients and vice versa.",
    "every coefficient set", "uncountable", ["wilson/match/smeft_tree.py:_match_all_array"])
add("Threshold matching is a restriction",
    "WET to WET-4 to WET-3 matching returns exactly the coefficients that exist in the lower theory, unchanged; matching in two steps equals restriction to the names in both bases.",
    "every coefficient dictionary and basis", "unbounded", ["wilson/match/__init__.py"])
# ---- converters --------------------------------------------------------------
add("LHA tensor round trip",
    "lha2matrix(matrix2lha(M), shape) = M for every tensor, and entries not listed are zero, later entries for the same index win.",
    "every tensor and list of entries", "uncountable", ["wilson/wcxf/converters/dsixtools.py:lha2matrix", "matrix2lha"])
add("DsixTools scale normalisation round trip",
    "Loading WCxf coefficients (multiplied by the high scale to the operator-dimension power) and exporting them returns the original coefficients for every nonzero high scale.",
    "every coefficient set and scale", "uncountable", ["wilson/wcxf/converters/dsixtools.py:SMEFTio.set_initial_wcxf", "get_wcxf"])
add("EOS parameter file adds exactly the new-physics part",
    "Each EOS parameter is the SM central value plus the real (imaginary) part of the matching coefficient, or the SM value if there is none; non-universal charged currents are rejected.",
    "every WC and SM dictionary", "unbounded", ["wilson/wcxf/converters/eos.py:get_eos_np", "wcxf2eos"])
add("Strong coupling and mass helpers choose the right thresholds",
    "alpha_s and the running masses return the input at the input scale, reject non-positive scales and unsupported flavour numbers, and otherwise decouple at the documented thresholds in order.",
    "every scale and flavour number, every RunDec backend", "uncountable", ["wilson/util/qcd.py"])
add("Continuous solutions cover the scale interval",
    "run_continuous rejects the input scale itself and otherwise returns a solution object whose lower and upper scales are the minimum and maximum of input and output scale.",
    "every pair of scales", "uncountable", ["wilson/run/smeft/classes.py:SMEFT.run_continuous", "wilson/run/wet/classes.py:WETrunner.run_continuous"])
add("Symmetric-beta: running preserves operator symmetries",
    "If all SMEFT arrays satisfy the symmetry relations of their classes and the gauge/Higgs parameters are real, the beta functions satisfy the same relations, so running stays in the physical subspace.",
    "every symmetric parameter point", "uncountable", ["wilson/run/smeft/beta.py:beta"])
add("SM beta functions are the Standard Model's",
    "With all Wilson coefficients zero the beta functions of g, g', g_s, Lambda, m2 and the Yukawas equal the one-loop SM beta functions.",
    "every SM parameter point", "uncountable", ["wilson/run/smeft/beta.py:beta"])
add("Input at the matching scale works in every basis",
    "SMEFT coefficients in any basis that match_run can match when given at some scale can also be matched when their scale happens to equal smeft_matchingscale. (Violated: for bases without a direct matcher, e.g. 'Higgs-Warsaw up', a ValueError is raised exactly at that scale.)",
    "every backend with the package's registrations, every request", "all scales and bases", ["wilson/classes.py:Wilson.match_run", "wilson/match/__init__.py", "wilson/translate/__init__.py"])
add("Symmetrized arrays represent the same Lagrangian",
    "For coefficients of every symmetry class, the sum over all flavour indices of symmetrized coefficient times operator equals the sum over the non-redundant operators of WCxf coefficient times operator (plus hermitian conjugate for the hermitian classes), for every operator array with the class's symmetry. (Violated for class 9, llphiphi: off-diagonal entries count twice.)",
    "every coefficient array and operator array of each class", "uncountable", ["wilson/util/common.py:EFTutil.symmetrize_nonred", "wilson/util/common.py:EFTutil._get_scale_dict"])
add("Symmetry classes are recognised from the list of coefficient names",
    "The constructor of the EFT helper puts each coefficient into the symmetry class whose non-redundant index set (and set of real entries) equals the set of index combinations the basis lists, two different classes are never confused, and it infers the right array shape.",
    "every basis whose coefficients list the non-redundant entries of one class each", "unbounded set of bases", ["wilson/util/common.py:EFTutil._get_symm_keys", "wilson/util/common.py:EFTutil._get_keys_and_shapes"])

add('A WET sector is a flavour class','The coefficient lists used in the WET running group the coefficients by the change of flavour they cause: two coefficients are in the same sector exactly if their operators (or their Hermitian conjugates) violate the same flavour charges and contain the same number of neutrinos; no coefficient is listed twice.','every pair of coefficients','2257 names, all pairs',['wilson/run/wet/definitions.py:sectors','coeffs'])
add('WET anomalous dimensions do not distinguish generations','The anomalous dimension between two coefficients is unchanged when generations of the same charge are exchanged simultaneously in both names and masses (QCD and QED, including the mass ratios and the dipole normalisation).','every pair of coefficients, every permutation of the generations, all masses, all flavour numbers','17 matrices with thousands of entries each, and uncountable masses',['wilson/run/wet/adm.py','wilson/run/wet/definitions.py'])
add('The WET evolution solves the renormalisation group equation','As a function of the strong coupling at the output scale the evolution matrix satisfies dU/dalpha_s = -(gamma_s^T U + alpha_e/alpha_s gamma_e^T U_s)/(2 beta_0 alpha_s) with U=1 at the input coupling, including degenerate (resonant) eigenvalues. The coefficients run_sector returns, multiplied by their normalisation (g_s/m for gluon dipoles, g_s^2/(e m) for photon dipoles, g_s for the three-gluon operators), therefore solve dN/dln(mu) = alpha_s/(4 pi) gamma_s^T N + alpha_e/(4 pi) gamma_e^T N_0, and the couplings and masses used are those of the flavour number of the EFT at the two scales.','every sector, every diagonalisable QCD ADM, every QED ADM, flavour number, positive couplings and masses, coefficients','a differential identity over the reals',['wilson/run/wet/rge.py:getUs','getUe','run_sector','scale_C','wilson/run/wet/classes.py:_get_running_parameters'])
add('WET anomalous dimensions respect parity','Exchanging left- and right-handed fields in both coefficient names maps the QCD and QED anomalous dimension matrices to themselves (up to complex conjugation and the sign of the CP-odd gluon operator); running the mirrored coefficients between two scales returns the mirrored result.','every pair of coefficients, all masses; every coefficient set, scales and couplings','thousands of entries',['wilson/run/wet/adm.py'])
add('Matching does not depend on the flavour basis','Rotating the SMEFT fermion multiplets by unitary matrices before the tree-level matching gives the same result as rotating the WET fields afterwards, each by the matrix of the multiplet it comes from (as long as the coefficients entering muon decay are unchanged).','every coefficient set and parameter set, every set of unitary matrices','uncountable; 72 long hand-written conditions',['wilson/match/smeft_tree.py:match_all_array'])
add('SMEFT running is CP symmetric','The beta functions of the CP-conjugate parameters (complex conjugate, with opposite sign for coefficients of operators with a dual field strength) are the CP conjugates of the beta functions; in particular a CP-conserving theory stays CP conserving.','every parameter point','uncountable',['wilson/run/smeft/beta.py:beta'])
add('Matching is CP symmetric','The WET coefficients matched from the CP-conjugate SMEFT coefficients are the CP conjugates of those matched from the original ones.','every coefficient set and parameter set','uncountable',['wilson/match/smeft_tree.py:match_all_array'])
add('Symmetric arrays survive the conversion to coefficient names','A complete set of arrays with the symmetries of their classes, converted to the non-redundant WCxf dictionary and back, is returned unchanged; the dictionary contains only names of the basis.','every set of symmetric arrays, every basis listing the non-redundant entries of its coefficients','uncountable; all symmetry classes and shapes',['wilson/util/common.py:EFTutil.arrays2wcxf_nonred','wilson/util/common.py:EFTutil.wcxf2arrays_symmetrized'])
add('WET running respects the phases of the flavour fields','Multiplying the coefficients by the phases that a rephasing of the individual quark and lepton fields induces multiplies their derivatives, and the coefficients returned by the running, by the same phases; in particular only coefficients whose operators change the same flavours mix. (Violated by VddLL_1231 and VddRR_1231, which carry the opposite flavour charges of the other coefficients of their sector and mix with them without complex conjugation.)','every coefficient set, all phases, all masses','uncountable phases and coefficients, thousands of matrix entries',['wilson/run/wet/adm.py','wilson/run/wet/definitions.py:coeffs'])
add('Every WET coefficient component has exactly one name','For every operator name and every choice of generation indices whose component does not vanish by symmetry exactly one listed coefficient represents the component, with a definite sign and (unless real) a definite complex conjugation.','every operator name, every allowed index tuple','all components of 72 tensors',['wilson/run/wet/definitions.py:coeffs','wilson/run/wet/definitions.py:C_keys'])
add('WET running keeps coefficients of Hermitian operators real','If the coefficients of all Hermitian operators are real then so are their derivatives under QCD and QED running, and the coefficients returned at any other scale, whatever the other, complex coefficients are.','every coefficient set, all masses','uncountable',['wilson/run/wet/adm.py','wilson/run/wet/rge.py'])
add('WET running never fails on the sectors of the package','For every sector of the package, every flavour number 3, 4, 5, every coefficient dictionary, scale, mass and coupling and both settings of QCD and QED the running returns a result: no class, sector or matrix is missing and all matrices have the size of their coefficient list.','every sector, every dictionary, all parameters','117 sectors times arbitrary dictionaries',['wilson/run/wet/rge.py:run_sector','wilson/run/wet/definitions.py:sectors','wilson/run/wet/adm.py'])
add('QCD does not renormalise conserved currents','Running without QED leaves the coefficients of four-lepton operators and of products of a quark and a lepton vector current exactly as they are, whatever the other coefficients.','every such coefficient, every coefficient set, scales and masses','uncountable',['wilson/run/wet/rge.py:run_sector','wilson/run/wet/adm.py'])
add('WET running of complex coefficients does not distinguish generations','Relabelling the generations in a set of complex coefficients (with the sign and complex conjugation required by the naming convention) and in the masses relabels their derivatives, and the coefficients returned by the running. (Violated for relabellings of the down quark with complex VddLL_1231 or VddRR_1231.)','every coefficient set, every relabelling, all masses','uncountable',['wilson/run/wet/adm.py','wilson/run/wet/definitions.py:coeffs'])
add('Translating via a third basis gives the same result','Translating JMS coefficients to the Bern basis and from there to the flavio basis gives the same values as translating directly to the flavio basis, and likewise via flavio to Bern, for every coefficient both routes provide.','every coefficient dictionary, all non-zero masses, couplings and CKM elements','uncountable; more than 1500 formulas',['wilson/translate/wet.py:JMS_to_Bern','Bern_to_flavio','JMS_to_flavio','flavio_to_Bern'])
add('EOS and flavio receive the same coefficients','For the operators that EOS and flavio have in common (b to u/c l nu, b to s l l, b to s gamma, b to s g) the coefficients exported to EOS and to flavio from the same JMS coefficients agree, real and imaginary parts combined and up to the documented factor of the b mass for scalars, and every exported value is a number. (Violated: the imaginary part of the chromomagnetic coefficients is dropped, and one four-quark coefficient is exported as an array.)','every coefficient dictionary, all non-zero masses, couplings and CKM elements','uncountable',['wilson/translate/wet.py:JMS_to_EOS','JMS_to_flavio'])
add('Tree-level matching is W and Z exchange plus contact terms','Every WET coefficient is the coefficient of its operator in the Lagrangian obtained by integrating out W and Z at tree level: contact term plus exchange of W and Z with the couplings (isospin, charge, weak mixing angle, corrections from dimension-6 operators), to first order in the SMEFT coefficients, minus the same expression in the Standard Model; identical currents are symmetrised, dipoles and three-gluon operators have the stated normalisation.','every coefficient set and parameter set, every WET coefficient, all flavour indices','uncountable; 72 long hand-written conditions',['wilson/match/smeft_tree.py:_match_all_array','match_all_array'])
add('Input parameters keep their meaning in the matching','G_F, alpha_e and m_W are observables: matched to the WET, the coefficient of muon decay is -2 sqrt(2) G_F with the input G_F whatever the SMEFT coefficients are, so that its new-physics part vanishes; the electric charge is the input one, the squared Z mass is an eigenvalue of the neutral mass matrix, and the Z couplings are those of its eigenvector, up to second order in the coefficients that mix W3 and B or break custodial symmetry.','every coefficient set that does not change the sign of G_F; all parameters','uncountable',['wilson/match/smeft_tree.py:_match_all_array','match_all_array'])
add('DsixTools files restore the coefficients','Writing coefficients with the symmetries of their operators to DsixTools files, with or without the redundant entries, and loading these files together with the file of the Standard Model parameters in either order restores every entry of every coefficient, every parameter of the beta functions and the scale; a file without redundant entries lists exactly the independent non-zero real and imaginary parts, each once. (Violated for the vacuum angles, which are written but dropped on loading.)','every physical set of coefficients and parameters, all scales, both settings','uncountable; 60 arrays with six kinds of symmetries and hand-written tables of redundant entries',['wilson/wcxf/converters/dsixtools.py:SMEFTio.dump','SMEFTio.load_initial','wc_dict2lha','wc_lha2dict','sm_dict2lha','sm_lha2dict'])
add('Matching at one loop respects the symmetries of the operators','If the SMEFT arrays have the symmetries of their operators, every WET array obtained from the matching at one loop has the index symmetries and the hermiticity of its operator, and the coefficients of the gluonic operators are real; with physical inputs the matching returns a result.','every coefficient set, parameter set, scale and CKM matrix','uncountable; 72 conditions with 1767 terms and about 500 tensor contractions',['wilson/match/smeft_loop.py:_match_all_array','match_all_array','wilson/match/smeft.py:match_all_array','wilson/match/smeft.py:match_all'])
add('Matching at one loop is CP symmetric','The WET coefficients matched at one loop from the CP-conjugate SMEFT coefficients with the complex-conjugate CKM matrix are the CP conjugates of the original ones; CP-conserving SMEFT coefficients with a real CKM matrix give CP-conserving WET coefficients.','every coefficient set, parameter set, scale and CKM matrix','uncountable',['wilson/match/smeft_loop.py:_match_all_array','match_all_array'])
add('Matching does not depend on the phases of the fields; lepton flavour and baryon number','Multiplying the fermion fields by phases, in the SMEFT coefficients and the CKM matrix, before the matching gives the same result as afterwards, at tree level and at one loop. In particular, SMEFT coefficients that conserve a lepton family number give WET coefficients that conserve it, and without baryon-number violating SMEFT coefficients there are no such WET coefficients.','every coefficient set, parameter set, scale, CKM matrix and all phases','uncountable',['wilson/match/smeft_loop.py:_match_all_array','wilson/match/smeft_tree.py:_match_all_array'])
add('Matching obeys the superposition principle','The WET coefficients matched, at tree level or at one loop, from a real linear combination of two sets of SMEFT coefficients are the same combination of those matched from the two sets, if the coefficients that modify the relations between the inputs G_F, m_W, alpha_e and the parameters of the Lagrangian vanish.','every pair of coefficient sets, all real factors, parameter sets, scales','uncountable',['wilson/match/smeft_loop.py:match_all_array','wilson/match/smeft_tree.py:match_all_array','wilson/match/smeft.py:match_all_array','wilson/match/smeft.py:match_all'])
add('The MadGraph card for SMEFTsim contains every coefficient','Every Wilson coefficient in the Warsaw mass basis that SMEFTsim has a parameter for (all but the Weinberg operator and the baryon-number violating operators) appears in the generated card exactly once: the parameters of SMEFTsim with its name and its flavour indices, interpreted as C/Lambda^2 with modulus and phase where SMEFTsim uses them, represent the entry of the coefficient array (each independent entry, with the factor for identical operators); no parameter is listed twice. (Violated: the diagonal entries of the Higgs-current operators lose their sign, and a real coefficient given as a record Re/Im is printed as a complex number.)','every coefficient file, both SMEFTsim models, both input schemes, every cutoff scale','uncountable; 5000 hand-written lines',['wilson/wcxf/converters/smeftsim.py:smeftsim_init','smeftsim_fill','wcxf2smeftsim'])
add('WET running is CP symmetric','Running the CP-conjugate WET coefficients (complex conjugate, with opposite sign for the CP-odd three-gluon operator) between two scales returns the CP conjugate of the result; in particular real coefficients without the CP-odd three-gluon operator stay so.','every coefficient set, every sector, all masses, couplings and scales','uncountable coefficients and parameters, thousands of matrix entries some of which contain the imaginary unit',['wilson/run/wet/adm.py','wilson/run/wet/rge.py:run_sector','wilson/run/wet/classes.py'])
add('Command line programs report failures','If the calls of the Python API that a subcommand of wcxf stands for succeed, the program ends with status 0 and its output is exactly their result; if they fail, the program does not end with status 0; wcxf validate prints its message of success exactly for valid files. (Violated: unknown formats, unreadable files in convert, unknown file types and every AttributeError, e.g. for a file whose values are a list, end with status 0.)','every subcommand, argument, input text and state of the files','arbitrary files and libraries',['wilson/wcxf/cli.py:wcxf_cli','convert','translate','match','validate','wilson/wcxf/converters/yamljson.py'])
add('Command line programs do not destroy files','The programs change no file except for the requested output, and a request that fails leaves the output as it was. (Violated: the output is emptied before the input is read; a conversion in place loses the data, and wcxf2eos with an invalid file empties the parameter file of the EOS installation. wcxf2smeftsim leaves the card alone if the input is invalid.)','every program, argument, input text and state of the files','arbitrary files, every point of failure',['wilson/wcxf/cli.py:wcxf_cli','eos','smeftsim','wcxf2dsixtools','dsixtools2wcxf'])
add('Matching commutes with the QCD corrections','For a SMEFT point with four-fermion coefficients and the strong interaction only (no electroweak couplings, no Yukawa couplings, no shift of muon decay, unitary CKM matrix), evolving with the SMEFT beta functions and then matching at tree level gives, to first order in the logarithm of the scale, the same WET coefficients as matching first and then evolving with the WET anomalous dimensions: matching the beta functions and rotating to the WET basis gives g_s^2 times the QCD rate of change of the matched coefficients, for every WET coefficient without closed quark lines. So the result does not depend on the choice of the matching scale at this order.','every coefficient set, every value of the strong coupling, every unitary CKM matrix, every WET coefficient without closed quark lines','uncountable; three independently hand-written tables (SMEFT beta functions, matching conditions, WET anomalous dimensions) have to agree',['wilson/match/smeft_tree.py:match_all_array','wilson/run/smeft/beta.py:beta','wilson/run/wet/adm.py','wilson/util/wet_jms.py:rotate_down'])
add('The Warsaw mass basis only diagonalises up-type and neutrino masses','Translating from the Warsaw to the Warsaw mass basis succeeds for every coefficient dictionary: the coefficients of the operators with a quark doublet and a right-handed up quark are multiplied by the CKM matrix and agree with those in the Warsaw up basis; the Weinberg operator becomes diagonal with non-negative entries whose squares are the eigenvalues of M^dagger M; all other coefficients are unchanged, and every non-zero entry of the result is a coefficient of the basis.','every coefficient dictionary, parameter set, CKM matrix and singular value decomposition','uncountable',['wilson/translate/smeft.py:warsaw_to_warsawmass','wilson/translate/smeft.py:smeft_toarray','wilson/translate/smeft.py:smeft_fromarray'])
add('Warsaw and Higgs-Warsaw up translators invert each other','Translating directly from the Warsaw to the Higgs-Warsaw up basis and back returns the coefficients (zeros dropped, real part for coefficients that are real by hermiticity), and translating from the Higgs-Warsaw up basis to the Warsaw basis and back returns the dictionary completed by zeros.','every coefficient dictionary, physical parameter set and unitary CKM matrix','uncountable',['wilson/translate/__init__.py:higgs_up_to_warsaw','wilson/translate/__init__.py:warsaw_up_to_higgs_up'])
add('Results of the SMEFT running are in the Warsaw basis, whatever the basis of the calculation','Before the running coefficients are returned they are rotated, by one unitary matrix for each fermion multiplet, to the basis where the running mass matrices of down-type quarks and charged leptons (with the dimension-six corrections) are diagonal with ascending non-negative entries and the one of the up-type quarks is V-dagger times such a matrix, with the CKM matrix V in the standard phase convention. If the masses are positive and different and the CKM elements ud, us, cb, tb do not vanish, the result does not depend on the weak basis of the calculation, up to a common phase of the quarks and one phase per lepton generation, and a point that is already in this basis is returned unchanged up to such phases; entries that conserve baryon number and the lepton family numbers are exactly the same.','every complete set of parameters and coefficients, every set of unitary matrices','uncountable; singular value decompositions are only unique up to phases',['wilson/run/smeft/classes.py:SMEFT._rotate_defaultbasis','wilson/run/smeft/classes.py:SMEFT._flavor_rotation'])
out = os.path.join(os.path.dirname(__file__), '..', 'properties.jsonl')
with open(out, 'w') as f:
    for p in P:
        f.write(json.dumps(p) + '\n')
print(len(P))
