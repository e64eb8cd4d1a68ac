# status overrides and notes for MANIFEST.json: id -> (status or None, note)
STATUS = {
 'C06': ('partial', 'Inheritance, missing parent and frame proved; the expected atomicity of a failed load is violated by the code (negation proved).'),
 'C13': ('partial', 'Proved for all histories without sector-restricted SMEFT-to-SMEFT requests from a non-Warsaw basis, given that WET running to the same scale is the identity; without that hypothesis also excluding requests at the matching scale; the two excluded cases are violated (negations proved).'),
 'C17': ('partial', 'Proved for all requests except SMEFT-to-SMEFT running, where the code violates the property (proved).'),
 'C18': ('partial', 'The documented contract is violated; the negation is proved for every hash function.'),
 'C65': ('partial', 'The expected property is violated by the code: proved for every backend with the package registrations; success at other scales proved.'),
 'C19': ('partial', 'Proved for all classes except the diagonal of class 71 (duuq-type antisymmetric), where the code keeps the input entry (negation proved).'),
 'C26': ('partial', 'Round trips proved for all dictionaries whose names use 1-based digits; a digit 0 aliases the last entry (negation proved).'),
 'C66': ('partial', 'Proved for classes 2, 4, 41, 5, 6, 7, 71, 8; for class 9 the code counts off-diagonal entries twice (negation proved, exact relation in the _partial theorem).'),
 'C67': ('proved', 'For every basis listing the non-redundant entries of one class per coefficient with two or three generations; a further theorem shows what happens outside this domain (only third-generation entries listed: taken for a scalar).'),
 'C42': ('partial', 'Proved for every parameter and coefficient with one exception: dphi with new physics, whose beta function contains one non-covariant term (beta.py line 509; negation proved); dphi is covariant when quqd1 vanishes.'),
 'C50': ('proved', 'Identity for all orders; composition for pure QCD when the ADM is the same at both starting scales (it depends on the scale only through mass ratios).'),
 'C51': ('partial', 'The expected property is violated by the code: with qcd_order=0 the QED order has no effect for any input (proved), while it has one when QCD is on (witness proved).'),
 'C61': ('partial', 'Proved for all scales and flavour numbers, except that the charm mass at scale m_c(m_c) ignores the flavour number (negation proved).'),
 'C47': ('proved', 'Both directions, domain, and the characterisation as stationary point and curvature of the potential, for C_phi = 0 or |C_phi| >= 1e-16 (the branch condition of the code); for smaller nonzero C_phi the deviation of the code is computed exactly in C47_tiny_violation.'),
 'C48': ('proved', 'All inputs except the Z mass, which is a prediction and agrees with the eigenvalue of the mass matrix to first order, for arbitrary coefficients with invertible normalisations, including phiWB; the singular value decomposition, brentq and ckm_tree are used through their contracts at the matrices that occur.'),
 'C58': ('proved', 'Round trip, last entry wins, unlisted entries zero, too large indices rejected; index 0 is not rejected but addresses the last entry (C58_zero_index_violation).'),
 'C59': ('proved', 'For every helper object of the SMEFT shape, every prior state of the object and every non-zero high scale; coefficients that hermiticity makes real come back with their real part; zero coefficients are not listed in the output.'),
 'C60': ('partial', 'Proved for every file, SM dictionary and name; the rejection of non-universal charged currents compares only electron and muon, a different tau coefficient is accepted and ignored (C60_tau_violation).'),
 'C31': ('partial', 'Proved for classes 4, 41, 5, 71 for every non-redundant name list and dictionary; class 6 (VeeLL, VeeRR, VnunuLL) is not completed by the code, and the diagonal of class 71, which has to vanish, is left undefined (negations proved).'),
 'C32': ('partial', 'Proved for classes 4, 41, 5, 71; redundant names of class 6 are silently dropped (negation proved).'),
 'C33': ('proved', 'For every dictionary of the JMS shape; unknown names raise.'),
 'C63': ('partial', 'Proved for the beta functions and for leading-log running, for every parameter point and all parameters, except the Fierz identity of ee and the flavour relation of qqql, which the beta functions violate (negations proved).'),
 'C54': ('partial', 'Proved for the tree-level matching of coefficient arrays, with the conditions under which it succeeds; missing: the one-loop contribution and the conversion from and to coefficient names.'),
 'C55': ('proved', 'For every SMEFT coefficient set with the symmetries of its operators and every parameter set for which the matching succeeds; not even the Fierz identity of ee and the relation of qqql are needed.'),
 'C56': ('proved', 'Both directions for baryon number; the Weinberg coefficient does not contribute at all.'),
 'C72': ('proved', 'For every JMS coefficient and all unitary rotations; the condition on muon decay is automatic if the lepton doublet is not rotated.'),
 'C73': ('proved', 'All parameters and coefficients, with and without new physics.'),
 'C74': ('proved', 'Tree-level matching.'),
 'C29': ('proved', 'Both orders, for every dictionary of Warsaw coefficients; values come back up to the real part of coefficients that are real by hermiticity and dropped zeros. The CKM function is a parameter with unitary value. The full Warsaw basis is shown to satisfy the assumptions.'),
 'C54': ('proved', 'The whole matcher from coefficient names to coefficient names. C54_zero holds for arbitrary one-loop matching conditions; success is proved with physical inputs at tree level and with the actual conditions at one loop.'),
 'C75': ('proved', 'The full Warsaw basis is shown to satisfy the assumptions.'),
 'C68': ('proved', 'For all pairs of the 2257 listed coefficients; flavour charges and neutrino number are computed from the field content of the operator.'),
 'C69': ('proved', 'Entry by entry, with the sign and conjugation of the naming convention, for both forces and all masses. Covariance of the running of complex coefficients is C81.'),
 'C71': ('proved', 'Entry by entry and for the derivatives of complex coefficients.'),
 'C76': ('partial', 'Proved for all coefficients except VddLL_1231 and VddRR_1231, for which the code violates it (negation proved).'),
 'C77': ('proved', 'All 72 operator names.'),
 'C78': ('proved', 'For the derivatives; with positive masses or not.'),
 'C79': ('proved', 'For 3 and 4 flavours on condition that the JMS basis file lists the sectors (the basis files are not in the checkout).'),
 'C80': ('proved', 'For run_sector with the actual tables; the eigendecomposition of numpy is assumed to diagonalise the matrix.'),
 'C81': ('partial', 'Proved for relabellings that do not move the down quark and for real coefficients; the general statement is violated by the code (negation proved).'),
 'C35': ('proved', 'All six pairs of translators, for every dictionary; the translators run without restriction of the sectors.'),
 'C36': ('proved', 'All six pairs of translators.'),
 'C37': ('proved', 'All six pairs of translators.'),
 'C38': ('partial', 'JMS and Bern in both orders and flavio to JMS and back proved completely. From JMS or Bern to flavio and back, tensor coefficients are lost or replaced, and from flavio to Bern and back those with sd and two different leptons (negations proved).'),
 'C34': ('proved', 'Both orders, for every dictionary whose self-conjugate coefficients are real and a unitary CKM matrix. The bases are not in the repository; their coefficients are listed in Spec/SmeftHiggs.'),
 'C39': ('proved', 'Flavour-conserving, neutrino and lepton flavour violating tables of the flavio translation and the FlavorKit tables, in both orders.'),
 'C82': ('partial', 'Via Bern proved for all coefficients the Bern basis has; via flavio for those that are not lost by the translation from flavio (see C38).'),
 'C41': ('partial', 'Each process depends on its own JMS coefficients only and determines all of them, for every process but sdnn; electromagnetic and chromomagnetic quark dipoles have the stated normalisation. The lepton dipoles are divided by the strong charge, sdnn is computed from the coefficients of b to d, and D mixing conjugates only some coefficients (negations proved).'),
 'C40': ('partial', 'The number under Re plus i times the number under Im is always the coefficient in EOS normalisation, and they are its real and imaginary part if Vtb Vts* is real. If it is not, no non-zero coefficient is exported as stated (negation proved).'),
 'C84': ('proved', 'All 72 WET coefficients, with and without subtraction of the Standard Model. The conventions are those of arXiv:1709.04486, written down in Spec/TreeExchange.'),
 'C85': ('proved', 'Muon decay exactly; electric charge, Z mass and Z couplings up to second order, which is the order the matching is defined at.'),
 'C86': ('partial', 'The code violates it for Theta, Thetap and Thetas (C86_theta_violation); proved for all Wilson coefficients and all parameters of the beta functions.'),
 'C87': ('proved', 'All 72 conditions as generated from the source; not even the Fierz identity of ee and the relation of qqql are needed.'),
 'C88': ('proved', 'Tree level and one loop.'),
 'C89': ('proved', 'The phases of quark doublets and right-handed up quarks are equal, and so are those of lepton doublets and right-handed charged leptons: the masses in the conditions are real.'),
 'C90': ('proved', 'For all parameters, scales and CKM matrices with which the two sets can be matched.'),
 'C91': ('partial', 'The code violates it: the sign of 22 (21) real coefficients of model A (B) is lost, and real coefficients given as Re/Im records are printed as complex numbers (negations proved). Proved for all other coefficients, and for these up to the sign; equal cards mean equal coefficients up to these signs.'),
 'C83': ('partial', 'Charged currents, vector, scalar and radiative coefficients proved. The chromomagnetic coefficient loses its imaginary part and b->s::c5 is an array (negations proved).'),
 'C92': ('proved', 'For every sector whose QCD anomalous dimension matrix the eigenvalue routine diagonalises correctly.'),
 'C93': ('partial', 'The code violates it: four kinds of failures end with status 0 (proved in general and with examples). Proved: success is status 0 with exactly the result of the API calls; all other failures end with the exception; the message of validate.'),
 'C94': ('partial', 'The code violates it: failures empty the output file (proved in general), in-place conversion and wcxf2eos lose data (examples). Proved: all other files are kept by all five programs; wcxf2smeftsim keeps the card if the input is invalid or declined; completed requests.'),
 'C95': ('proved', 'All WET coefficients without closed quark lines; penguin contractions (closed quark lines) are excluded by the statement because the top quark runs in these loops above the matching scale only.'),
 'C96': ('proved', 'The singular value decomposition of ckmutil (outside the checkout) is a parameter; its defining properties are a hypothesis of C96_masses only.'),
 'C97': ('proved', 'The lists of coefficients of the two bases (outside the checkout) are parameters constrained by IsSmeft and Bases; C97_bases_example gives an instance with the full Warsaw basis.'),
 'C98': ('proved', 'The functions of ckmutil (outside the checkout) are parameters; that they return singular value decompositions and rephase to the standard convention is a hypothesis for the matrices they are called with. C98_example gives an instance.'),
}
