# Regenerates DESIGN.md from MANIFEST.json, properties.jsonl and the tables below.
import json, os
here = os.path.dirname(os.path.abspath(__file__))
root = os.path.join(here, "..")
P = {}
for l in open(os.path.join(root, "properties.jsonl")):
    d = json.loads(l); P[d["id"]] = d
S = {c["property"]: c for c in json.load(open(os.path.join(root, "MANIFEST.json")))["claims"]}
T = {}
def t(ids, model, method):
    for i in ids.split(): T[i] = (model, method)

t("C01 C02 C03 C04", "`Model/Base91`: encoder and decoder as folds over bytes/characters, the bit queue as a `Nat`", "invariant between the encoder's queue, the characters emitted and the decoder's queue; induction on the input; counting of emitted bits for C04")
t("C05 C06", "`Model/Base64`: encoder and decoder", "induction by groups of three bytes, arithmetic on bytes")
t("C07 C71", "`Model/Stl`: binary writer and reader on byte lists, little-endian words", "round trip of words and triangles, induction on the facets; C71: what a short file gives, refutation by a concrete file")
t("C08 C09 C10 C11 C12 C13 C14 C15", "`Model/History`: every public method of `History` (record, get, average, bracketing loop, dropping), ULP comparison as a parameter", "state invariant (increasing dates, window) preserved by every operation, hence for every history of calls; the bisection by well-founded induction; integral of the piecewise linear function for the average; counter-examples for C11 and C14")
t("C16", "`Model/State`: index macros", "arithmetic, injectivity and exhaustiveness")
t("C17 C18 C19 C20 C73", "`Model/Server`, `Model/Server`: JSON and gRPC request conversions", "case analysis on arbitrary requests; refutations by concrete requests")
t("C21 C22 C23 C24 C75", "`Model/BlockedDof`, `Model/Sim`, `Model/Solver`: blocked states, forced derivatives, delta F, observation, stepping callbacks", "induction over the lists of blocked states and bodies; uniqueness of keys; algebra for delta F; C24 refuted for two bodies")
t("C25 C26 C72 C74", "`Model/Body`, `Model/State`: quaternions, rotation matrices, Euler angles", "algebra and derivatives over ℝ")
t("C27", "`Model/Server`: history and commands kept between requests", "induction over the previous requests; refuted when commands are omitted")
t("C28 C29 C95", "`Model/Forces`, `Model/Body`: changes of point and frame of wrenches", "power of a wrench in every rigid motion; refutations with concrete frames")
t("C30 C31 C91 C92 C93 C94 C96 C97 C57 C58 C118", "`Model/Forces`, `Model/Body`: rudder, Wageningen propellers, controllers, damping, gravity, constant force, resistance, linear hydrostatics, GZ", "algebra and order over an ordered field or ℝ; inf/NaN of the advance ratio modelled explicitly (`Ratio`); refutations by concrete numbers")
t("C32", "`Model/Solver`: quicksolve with an abstract stepper and scheduler", "induction on the steps, termination measure")
t("C33 C34 C35 C36 C37 C76 C98", "`Model/Observer`, `Model/StdMap`, `Model/Config`: observers as transformers of (address, value) streams", "induction on requests and observed values; simple JSON/CSV grammars as specification (`Spec/Observer`); refutations by concrete requests")
t("C38 C39 C40 C41 C42 C43 C114", "`Model/Mesh`: edge status, edge and facet splitting, the two loops of the intersector, mesh builder", "loop invariants (`EInv`, `FInv`, `SInv`, `WInv`) over arbitrary triangle meshes and immersions; algebra for areas and interpolations")
t("C44 C77 C105 C106 C108 C109 C113 C115", "`Model/MeshVolume`, `Model/Hydrostatic`, `Model/MeshFrame`, `Model/Closing`: normals, areas, volumes, centres, hydrostatic forces, changes of frame", "closed polyhedra as multisets of oriented sides that cancel; fan decomposition; discrete divergence theorem; refutations by concrete tetrahedra")
t("C110 C111 C112", "`Model/Closing`: ClosingFacetComputer (grouping, walk along the contour, orientation)", "Boost's components as a specified parameter; the walk by induction along a polygon; convexity for the orientation; refutation by a concrete star")
t("C45 C46 C47 C48 C49 C50 C51 C52 C53 C54 C78 C79 C80 C81 C82 C83 C84 C116 C117", "`Model/Waves`, `Model/WaveGrid`: discretization, flattening, filtering, phases, stretching, Airy, spectra, spreadings, wave number, wave grids", "sums over lists; derivatives, integrals and trigonometry of Mathlib; refutations by concrete spectra")
t("C55 C56 C85 C86 C87 C88 C89 C90", "`Model/Hdb`: HDB tree to tables, change of frame, RAO tables, diffraction, radiation", "loop invariants over the sections of the file, matrices over `Fin 6`, angles modulo 2 pi; quadrature and splines are parameters")
t("C59 C60 C61", "`Model/Maneuvering`, `Model/ManeuveringTmax`: character-level parser (PEG), evaluator, printer, Tmax", "`Spec/Maneuvering`: textbook grammar and semantics; completeness and soundness by induction on derivations; refutations by concrete texts")
t("C62 C63 C64 C65 C66 C67", "`Model/Config`: output formats, websocket addresses, builder of environment and force models, history lengths, commands", "strings as lists of characters; induction on lists of models; refutations by concrete names")
t("C68 C69 C70 C99 C100", "`Model/GZ`: heel angles, bisection, Newton-Raphson, draft interval", "bisection invariant and measure; linear case solved exactly; refutations by concrete bodies")
t("C101 C102", "`Model/StlAscii`, `Model/Stl`: text writer and reader, detection of the format; printing/scanning of one number is a parameter", "line-by-line induction, invariants of the reading loop over arbitrary texts")
t("C103", "`Model/State`: body states and their histories", "symbolic execution; refutation for the second body")
t("C104", "`Model/GM`: GM force model and its effects on shared state", "algebra, limits, and symbolic execution of the shared kinematics")
t("C107", "`Model/Inertia`: checks on the inertia matrices", "Sylvester's criterion proved in `Lemmas/Sylvester` for 6x6 matrices; refutation for the absolute tolerance")
exec(open(os.path.join(here, "design_more.py")).read()) if os.path.exists(os.path.join(here, "design_more.py")) else None

missing = [i for i in P if i not in T]
assert not missing, missing
head = open(os.path.join(here, "design_head.md")).read()
tail = open(os.path.join(here, "design_tail.md")).read()
rows = ["| id | property | status | what is modelled | how it is proved | theorems |", "|---|---|---|---|---|---|"]
for i in P:
    c = S[i]
    names = ", ".join("`" + n.split(".", 1)[1] + "`" for n in c["theorems"])
    note = (" — " + c["note"]) if c.get("note") else ""
    rows.append("| %s | %s | %s%s | %s | %s | %s |" % (i, P[i]["title"], c["status"], note.replace("|", "/"), T[i][0], T[i][1], names))
open(os.path.join(root, "DESIGN.md"), "w").write(head + "\n".join(rows) + "\n\n" + tail)
