# Formal model of wilson-eft/wilson in Lean 4

## 1. What this is

`/verif/lean` contains a Lean 4 model of the Python package `wilson` (read as
text from `/repo`, pinned commit) and kernel-checked theorems about it.
`properties.jsonl` lists the properties (C01 ...), `MANIFEST.json` maps them to
theorem names, `seeded/LOG.jsonl` logs the wrong-program experiments.

Layout of `lean/Verif`:

* `Model/`  - the code, function by function; every definition cites file:lines.
* `Gen/`    - definitions generated from the text of `/repo` by `tools/*.py`
              (long tables and formula lists: symmetrization assignments, beta
              functions, matching formulas, translation formulas, JSON tables).
* `Spec/`   - small independent specifications used in theorem statements.
* `Lemmas/` - helper lemmas (nothing there is a property claim).
* `Props/`  - the property theorems, one file per group, each next to a
              non-vacuity example.

## 2. Trusted base

* Lean 4.33.0 kernel; Mathlib for ℂ, matrices, big operators, `ring`, ...
* Axioms: at most `propext`, `Classical.choice`, `Quot.sound` (Section 6 lists
  them per theorem file; `tools/axioms.sh` regenerates the list).  No axiom, no
  `sorry`, no `native_decide`/`bv_decide`.
* The faithfulness of the hand-written model to the Python text, and of the
  generator scripts in `tools/` (they translate Python expressions by a purely
  syntactic AST walk and refuse any construct they do not know).
* Idealisations, all stated where used:
  - Python/numpy floats are modelled as exact real/complex numbers (no
    rounding, overflow, NaN except where NaN is used as a marker in
    `JMS_to_array`, where it is modelled as `none`).
  - Python dicts are insertion-ordered association lists / finite maps.
  - exceptions are `Except` values.
  - external libraries (scipy ODE solver, numpy eig, ckmutil, rundec, brentq,
    json/yaml, LaTeX, voluptuous' coercion of floats) are parameters of the
    model with, at most, explicitly stated hypotheses.
  - the git submodule `wilson/wcxf/bases` is not part of the checkout, so basis
    contents are a parameter (a registry) of the model.

## 3. Modelled / not modelled

| code in `/repo/wilson` | model |
|---|---|
| `classes.py` (options, cache, match_run, hash) | `Model/Options`, `Model/Wilson` |
| `wcxf/classes.py` (registry, Basis, WC, Translator, Matcher, load/dump) | `Model/WCxf` |
| `util/common.py` | `Model/EFTInit`, `EFTUtil`, `ArrayProg`, `Bridge`, `Gen/Symmetrize` |
| `util/wet_jms.py`, `util/smeft_warsaw.py` | `Model/WetJms`, `TranslateSmeft` |
| `util/qcd.py`, `run/wet/rge.py: get_f` (decision logic) | `Model/Qcd`, `Threshold` |
| `translate/smeft.py` | `Model/FlavorRotation`, `Rotation`, `TranslateSmeft`, `WarsawMass`, `Gen/Rotation` |
| composite SMEFT translators in `translate/__init__.py` | `Model/TranslateInit` |
| `run/smeft/{classes,rge,beta,smpar}.py` | `Model/SmeftRun`, `Beta`, `SmPar`, `Gen/Beta` |
| `run/wet/{classes,rge}.py` | `Model/WetRun` |
| `run/wet/{definitions,adm}.py` (all tables, all matrix entries) | `Model/WetTables`, `Gen/WetTables`, `Gen/Adm` |
| `match/smeft_tree.py`, `match/smeft.py`, `match/__init__.py` | `Model/Match`, `MatchAll`, `Gen/MatchTree` |
| `match/smeft_loop.py` (all 72 matching conditions) | `Model/LoopDefs`, `MatchLoop`, `Gen/LoopProg`, `Gen/LoopCoef*`: each condition as a sum of scalar factors times tensor contractions, collected by `tools/gen_loop.py`; `Model/LoopCompile` and `Gen/LoopCompiled` are an equivalent form used in proofs only |
| `wcxf/converters/smeftsim.py` (`wcxf2smeftsim` and the assignments of `smeftsim_init`, `smeftsim_fill`) | `Model/SmeftSim`, `Gen/SmeftSimA`, `Gen/SmeftSimB` (written by `tools/gen_smeftsim.py`): the rows of the card in order. Which parameter of SMEFTsim a position stands for is taken from the comment in the row; the fixed text above the rows and MadGraph itself are not modelled |
| `wcxf/converters/{dsixtools,eos}.py` | `Model/Dsix`, `Eos`, `Gen/Dsix` |
| `translate/wet.py`: JMS/Bern/flavio translators | source transcribed to the terms of a small Python interpreter (`Gen/WetPy`, `Model/Py`, `PyStr`, `JmsArrays`, `WetTranslate`), run symbolically; `Model/WetApply` evaluates the result |
| `translate/wet.py`: `JMS_to_FormFlavor`, `JMS_to_EOS` | the same interpreter; processes and labels listed in `Spec/FormFlavor`; `Model/WetEos` for the array among the EOS values |
| `translate/wet.py`: `FlavorKit_to_JMS`, `JMS_to_FlavorKit` | `Model/FlavorKit`: the loops written out, tables from `Gen/WetPy` |
| `translate/smeft_higgs.py` | `Model/SmeftHiggs`: all formulas; the bases are parameters listed in `Spec/SmeftHiggs` |
| `wcxf/cli.py`, `wcxf/converters/yamljson.py` | `Model/Cli`: the programs after the parsing of the arguments, including the order in which files are opened, read and written |
| registrations in `translate/__init__.py`, `match/__init__.py` | `Gen/Registrations` |

Not modelled: HTML/markdown rendering, pandas data frames, plotting, argparse,
LaTeX check, the SVD-based re-diagonalisation numerics (`ckmutil`), rounding
errors.

## 4. Plan per property

| id | model | proof |
|----|-------|-------|
| C01, C02 | `Model/WCxf`: WC, Translator, Matcher over a registry of functions | case analysis, list filter lemmas |
| C03 | value encoding as sum type number / Re-Im record | round trip lemma, list map |
| C04, C07 | registry of EFTs/bases as association lists | iff proofs over list membership/Nodup |
| C05 | registry operations as a state machine | induction over operation histories |
| C06 | Basis construction as state-passing function | lookup in updated dict; negation witness for the failed load |
| C08 | object attributes as dict; serialiser as parameter with load∘dump=id | filter lemma |
| C09-C12 | `Model/Options`: class defaults, instance options, schema, coercion as parameter | case analysis; C10 by induction over histories of many instances |
| C13-C17 | `Model/Wilson`: match_run as state-passing program over an abstract physics backend with cache and call trace | invariant "every cache entry equals the uncached result", induction over histories; counterexamples for the violated parts |
| C18 | hash as arbitrary function of (wc, set of option names) | equality of the hash for different options (negation) |
| C19, C20 | generated assignment lists + sequential interpreter | reflection: symbolic execution on a normal form, `decide +kernel` over the whole finite index table, lifted to all arrays by a soundness lemma |
| C21, C33 | generated/table definitions | finite decision over all 81 indices, stated as cardinality of explicit orbit |
| C22, C23 | interpreter + linear arithmetic | per entry |
| C24-C26 | lists of keys and shapes, arrays as functions on indices | induction over key list |
| C27-C30 | generated table of index types for each coefficient; tensors Fin 3^n → ℂ | finite sums, unitarity |
| C31, C32 | NaN as `Option`; generated class tables | case analysis over index orbits |
| C34 | `Model/SmeftHiggs`, direct definitions over ℂ | both orders for every dictionary, algebra with unitarity of the CKM matrix |
| C39 (FlavorKit) | `Model/FlavorKit` | injectivity of both tables checked by the kernel, induction over the loop |
| C35-C39, C82 | symbolic execution of the transcribed source | the kernel runs the interpreter (`Lemmas/WetRuns*`), composes the formulas of two translators and compares normal forms (`SymNorm`, `SymSubst`, proved sound over ℂ) for every name of the tables |
| C40, C41, C83 | symbolic execution as for C35; processes, labels and EOS formulas written down in `Spec/FormFlavor`, `Spec/WetEos` | formulas compared by their normal forms; counterexample witnesses and partial theorems |
| C84 | the tree-level Lagrangian in dual numbers (`Spec/TreeExchange`): currents, couplings, exchange; compared with the generated matching conditions `Gen/MatchTree` | each of the 72 expressions evaluated symbolically for arbitrary indices and compared by field arithmetic |
| C85 | `Model/Match.scalars`; kinetic and mass matrix of W3 and B in `Spec/Electroweak` | muon decay by algebra; eigenvectors determined from their equations, differences shown to be `λ² R(λ)` with `R` continuous |
| C86 | `Model/Dsix` (`wcDict2lha`, `wcLha2dict`, `smDict2lha`, `smLha2dict`, `loadInitial`, `dump`); `SmeftHelper`, `Physical` in `Spec/Dsix` | the blocks as lists of rows, by induction over the writes; the tables of redundant entries compared with the operator classes (kernel evaluation over the whole tables); symmetrizing reconstructs the other entries (C20) |
| C87 | `Model/MatchLoop` | each condition expanded to monomials for each index tuple (`LoopExpand`, `LoopFast`, proved equal to the sums), compared with the reflected ones in the kernel (`LoopSym`) |
| C88, C89 | `Model/MatchLoop` | parity of the number of CP-odd factors, phases of every subscript (`LoopCharge`), checked for every term in the kernel; family numbers by evaluation at roots of unity; for the named coefficients (`Props/MatchNames`), reading, symmetrizing, the rotation and the symmetry factors commute with conjugation and keep the quantum numbers |
| C90 | `Model/Match`, `Model/MatchLoop` | at most one coefficient per term, checked in the kernel; affine functions minus their value at zero are linear; for the named coefficients (`Props/MatchNames`), reading and symmetrizing the dictionary, the rotation and the symmetry factors are linear |
| C91 | `Model/SmeftSim`; meaning of a card in `Spec/SmeftSim` (`cardCoeff`) | each row compared with the entry its label names (kernel evaluation over the whole table), every entry found once by bit sets; the number read back with C20, C21 |
| C42-C45, C63, C64 | `beta.py` translated to a deep embedding of tensor expressions with an evaluator | reflective checkers (index typing, degree, symmetry) with soundness theorems, run in the kernel |
| C46-C48 | direct definitions over ℝ/ℂ; the kinetic normalisation, the potential and the mass matrices are specified separately | algebra; `C48_electroweak` compares with the eigenstates of the mass matrix to first order |
| C49-C53 | `Model/WetRun` with abstract ADMs over ℂ | matrix algebra, list lemmas |
| C54-C56 | generated matching formulas in the same tensor language | definitional / reflective checkers |
| C57 | filters on dicts | list lemmas |
| C58-C60 | `Model/DsixTools`, `Model/Eos` | induction over lists |
| C61, C62 | decision logic over abstract backends | case analysis |
| C63, C64, C73 | symmetry relations, SM limit and CP transformation on the same tensor expressions | reflective checkers; witnesses for ee and qqql |
| C65 | registrations of the package + `Model/Wilson` | case analysis over the generated registration table |
| C66, C67 | symmetrization programs, constructor of the EFT helper | sums over orbits; set comparison over the generated class tables |
| C68, C77, C79 | generated sector and coefficient tables, specification of operator names in `Spec/WetOps` | certificate tables (`Gen/WetCert`) checked by the kernel, lifted by lemmas |
| C69, C71, C76, C78, C80, C81 | generated anomalous dimension matrices as sparse tables with symbolic mass ratios | every non-zero entry checked by the kernel against generator symmetries; induction over relabellings |
| C70 | `getUs`, `getUe`, `run_sector`, running parameters over real couplings; normalisation in `Spec/WetNorm` | derivative of matrix functions, resonant case included; chain rule along the one-loop running of the coupling |
| C92, and C71, C76, C78, C81 for whole runs | the same tables and `run_sector`; vocabulary in `Spec/WetCP` | the evolution matrices are polynomials with real coefficients of the anomalous dimension matrices (interpolation, both runs at once), so every real-linear relation kept by the right-hand side is kept by the run |
| C93, C94 | `Model/Cli`: the five programs as functions on a world of files, standard output and messages; parsers, serialisers and converters are parameters; what is asked for in terms of the API in `Spec/Cli` (`api`) | symbolic execution of every subcommand; a class of programs that keep all files but the output, closed under sequencing |
| C95 | no new model code: the SMEFT beta functions (C42), tree-level matching (C54, C84), rotation to the WET basis and QCD anomalous dimensions (C68) of the earlier properties are put together; hypotheses `OnlyStrong` and the excluded coefficients `NoClosedLoop` in `Spec/Contact` | the beta expressions are pruned to their g_s^2 terms and brought to closed form; the WET matrices are reduced to the entries that connect a coefficient with itself and its colour partner by a kernel check of all sectors; the matching is linear and keeps the form of the QCD mixing |
| C96 | `smeft_toarray`, `smeft_fromarray` and `warsaw_to_warsawmass` as in the code; `msvd` of ckmutil is a parameter (`IsSvd` says what it promises) | induction over the dictionary for the reading, over the list of rotated coefficients for the loop; the up-type part is compared with the model of `warsaw_to_warsaw_up` (C29); the masses through the characteristic polynomial |
| C97 | the two composite functions of `translate/__init__.py` on top of the models of C29 and C34; `chars`, `strings` change the representation of keys only | the round trips of C29 and C34 are composed: the rotation depends only on the values with missing coefficients read as zero, and it returns real values for coefficients that are real by hermiticity |
| C98 | `SMEFT._rotate_defaultbasis` on top of the model of `_flavor_rotation` (C27); `msvd`, `mtakfac`, `rephase_standard`, `rephase_pmns_standard` of `ckmutil` are parameters with their documented results as hypotheses | uniqueness of the singular value decomposition up to phases (commuting with the matrix of distinct squared masses; the permutation of singular values is monotone), uniqueness of the phases of the standard CKM parametrisation, composition of rotations (C27); charges of an entry count its phase |
| C72, C74 | matching formulas as typed tensor expressions | flavour typing and CP checkers |
| C75 | conversion arrays to names to arrays (`Bridge`) | orbits of index tuples |

## 5. Known violations found in the code

Each is a theorem with suffix `_violation` (negation of the expected property,
with a concrete witness) next to the part that holds.

| theorem | what the code does |
|---|---|
| C06_failed_load | a basis whose parent is missing stays registered after the failed load |
| C13_sector, C13_matchingscale | the cache of match_run answers a later request with a result restricted to other sectors, or run where it should not be |
| C17_smeft | a SMEFT result translated after running carries coefficients that a direct request does not |
| C18_contract | equal hash for different option values |
| C19_class71 | a non-zero diagonal entry of an antisymmetric pair survives the symmetrization |
| C26_digit_zero, C58_zero_index | index 0 addresses the last row (Python index -1) |
| C86_theta_violation | `load_initial` reads Theta, Thetap, Thetas and loses them when the arrays are symmetrized |
| C31_class6, C31_class71, C32_class6 | class 6 of the WET arrays is not completed, redundant names are dropped; diagonal of class 71 left undefined |
| C38_tensors_lost, C38_seven, C38_sd | `flavio_to_JMS` and `flavio_to_Bern` lose semileptonic tensors, `Bern_to_flavio` reads 16 times coefficient 9 as coefficient 7, `flavio_to_Bern` drops `sd` with different leptons |
| C40_complex_prefactor, C83_chromomagnetic, C83_array | EOS export: parts are taken before multiplying by the complex prefactor; the imaginary part of `c8` is dropped; `c5` is a tuple because of a trailing comma |
| C41_lepton_dipoles, C41_sdnn, C41_D_mixing | FormFlavor export: lepton dipoles divided by g_s, `sdnn` read from the b to d coefficients, only some of the D mixing coefficients conjugated |
| C42_dphi | beta.py line 509: a term of the `dphi` beta function is not flavour covariant |
| C47_tiny | `abs(Cphi) < 1e-16` is treated as zero |
| C51_no_qed_without_qcd, C51_effect_lost | `qcd_order=0` switches off QED running too |
| C60_tau | EOS export ignores a different tau coefficient |
| C61_charm | charm mass at m_c(m_c) ignores the flavour number |
| C63_ee_fierz, C63_qqql | beta functions of `ee` and `qqql` leave the symmetric subspace |
| C65_at_matching_scale | bases without direct matcher raise exactly at the matching scale |
| C66_class9 | off-diagonal `llphiphi` counted twice |
| C67_only_third_generation | coefficients listing only third-generation indices are taken for scalars |
| C91_sign_violation, C91_record_violation | SMEFTsim card: only the modulus of the real diagonal entries of `phil1`, `phil3`, `phie`, `phiq1`, `phiq3`, `phiu`, `phid` (and `ee_3333` in model A) is written; a real coefficient given as a record is written as a Python complex number |
| C93_violation, C93_silent_violation | `wcxf convert xml`, `wcxf convert` of an unreadable file, `wcxf validate WC` and every AttributeError inside a subcommand (e.g. a file whose values are a list) end with exit status 0 |
| C94_violation, C94_truncated_violation | `--output` empties the file before the input is read: failed requests lose its previous contents, `wcxf convert json f --output f` replaces `f` by `null` with status 0; `wcxf2eos --eoshome` empties the EOS parameter file before it looks at the input |
| C76_rephasing, C81_generation_covariance | `VddLL_1231`, `VddRR_1231` should enter the sector `sb` complex conjugated |

## 6. Axioms

`tools/axioms.sh` prints the axioms of every property theorem.  All of them
depend on a subset of `propext`, `Classical.choice`, `Quot.sound`; no theorem
depends on anything else.
