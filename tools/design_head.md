# Design of the formal model of sirehna/xdyn

Source: `/repo/code` (C++). Model and proofs: `/verif/lean` (Lean 4.33, Mathlib), one namespace per part of the
code (`Xdyn.History`, `Xdyn.Hull`, `Xdyn.Waves`...).

* `Verif/Model/*.lean` — the model: definitions that transcribe the code function by function, each citing its file and lines.
* `Verif/Spec/*.lean` — small specifications, independent of the model, used by the statements (piecewise linear interpolation,
  textbook expression grammar, oriented sides of polyhedra, JSON and CSV grammars...).
* `Verif/Lemmas/*.lean` — auxiliary lemmas and loop invariants.
* `Verif/Props/*.lean` — the theorems of `MANIFEST.json`, with `example`s showing that their hypotheses hold in concrete
  non-trivial cases.

When a property is false of the code, the manifest says `partial`: a theorem with the suffix `_partial` proves what holds, under explicit
hypotheses, and a theorem with the suffix `_refuted` (or a telling name) proves, on the model of the code, that the full statement fails.
Those refutations are findings about xdyn; they are listed at the end.

`DESIGN.md`, `properties.jsonl` and `MANIFEST.json` are generated by `tools/design.py`, `tools/props.py` and `tools/manifest.py`.
`seeded/LOG.jsonl` records the wrong programs the theorems were tested against.

## Trusted base

* Lean's kernel, and the three standard axioms `propext`, `Classical.choice`, `Quot.sound`. No axiom is added; nothing relies on compiled
  evaluation: concrete computations are done by the kernel (`decide`, `decide +kernel`, `rfl`, `norm_num`). `tools/axioms.py` prints the axioms of every
  theorem of the manifest: all of them depend on a subset of these three (about forty on `propext` and `Quot.sound` only).
* The transcription of the C++ text into `Verif/Model`. It was made by reading; nothing is extracted mechanically.
* **Numbers.** `double` is an element of an arbitrary linearly ordered field, or of `ℝ` when `sin`, `exp`, `sqrt`... occur. Rounding, overflow,
  NaN and infinities are not modelled, except where a NaN or an infinity is the point (`Ratio` for the propellers' advance ratio, `NaN` results of unreadable
  maneuvering expressions). The ULP comparison of `History` is a parameter about which only what is stated is assumed.
  Integers are `Nat`/`Int`; the places where the code could overflow are commented (GZ loop index, bytes and words of base91, base64 and STL are bounded
  explicitly).
* **Errors.** A C++ exception is `Except.error (.throw name)`; undefined behaviour (reading out of an array with `operator[]`, uninitialised values, buffer
  overflow) is the distinct `Except.error .ub`, never a default value that could make a theorem true by accident. `at()` throws.
* **External libraries** (SSC, Eigen, yaml-cpp, Boost, gRPC, HDF5, RapidJSON) are not in `/repo`. Where the code calls them the model uses their documented
  behaviour (3x3 and 6x6 products, `std::map`, a scheduler with fixed steps) or a parameter constrained by its documentation (root finders, connected components,
  quadratures, splines, `atof`/printing of numbers); each such place is commented.

## What is modelled and what is not

Modelled (see the table): base91/base64, binary and text STL, `History`, body states and blocked degrees of freedom, the equations of motion's kinematics, the solver
loop and its observers (CSV, TSV-like, JSON, maps), co-simulation and model-exchange servers up to the message structures, hull meshes (construction, cut by the free
surface, closing facets, volumes, centres, hydrostatic forces), wave models (spectra, discretization, Airy, stretching, wave grids), HDB files from their syntax tree,
diffraction and radiation, the force models listed above, maneuvering expressions from their characters, the builder of the simulation, output formats and addresses, GZ
curves and GM.

Not modelled: YAML, HDF5 and protobuf wire formats (the model starts at the structures they fill), file and console I/O, websocket and gRPC transport, SSC's integration
schemes (the stepper is a parameter), Coriolis terms (SSC), splines and quadratures (parameters), unit conversion (SSC `parse_uv`), Matlab and Python exports, the
documentation examples, command-line help, and floating-point rounding. No property is claimed about them.

## Properties

