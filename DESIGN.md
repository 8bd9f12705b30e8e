# Formal model of Klein (jeremyong/Klein)

The code in `/repo` is read as text; nothing is built or run.  The model is written in Lean 4 with
Mathlib, under `lean/Verif`.  The properties are in `properties.jsonl`, the theorems for each of them
in `MANIFEST.json` (theorem `Cnn_...` belongs to property `Cnn`), attempts to break the theorems with
wrong programs in `seeded/LOG.jsonl`.

## Layers

1. **Lanes** (`Verif/Simd.lean`): an `__m128` is four lanes `V4 F`; every intrinsic the code uses is one
   Lean function with the semantics of the Intel manual.  `F` is an *arbitrary* type with raw
   `+ - * neg 0 1 2 ...`; no algebraic law is assumed in any definition.
   - theorems with a law-free `F` are bit-exact statements (valid for IEEE floats with NaN, any
     rounding mode, any FTZ setting, provided the compiler evaluates the intrinsics as written);
   - theorems with `F` a commutative ring / field / `ℝ` are statements in exact arithmetic;
   - theorems with `R : Rounded F` are statements in rounded arithmetic: `F32.rounded` is binary32
     with round to nearest even, `Rnd.rounded` any rounding function on the reals;
   - `_mm_rcp_ps` / `_mm_rsqrt_ps` are parameters (`Hw`), with the accuracy stated in the Intel manual
     (relative error at most 1.5 * 2^-12) as a hypothesis where it is needed (`Hw.Contract`);
   - `F := Fp` (`ℝ` and one more value) has a distinct non-finite value, so that division by zero is an outcome, not `0`.
2. **Kernels** (`Verif/Kernels`): one definition per function of `detail/x86/*.hpp`, statement by
   statement; `KLEIN_SSE_4_1` is the parameter `isa`.
3. **Entities** (`Verif/Api`): plane, point, line, branch, ideal_line, direction, rotor, translator,
   motor, dual and every public operator.  `libm` functions are the parameter `Libm F`.
4. **Memory** (`Verif/Memory`): the array overloads and the C++11 variants on an address-indexed
   memory in the statement order of the source, so that aliasing is expressible; uninitialised memory
   is a parameter; alignment of stores is checked.
5. **Binary32** (`Verif/Float`): bit patterns, exact rounding, comparisons, `copysign`; that rounding
   is to the nearest, even on ties, and that the comparisons compare numbers (`Order.lean`); `sqrtss`
   (`Sqrt.lean`); the rounding
   error theorems (`Round.lean`), the error calculus (`Rounded.lean`), absence of overflow
   (`Range.lean`), the refined estimates (`Newton32.lean`, assumption `Hw.Contract32`), error analysis by
   reflection (`Expr.lean`) and its extension to fused multiply-adds (`Fma.lean`); a lane type on which the
   whole model runs with a compiler choosing what to fuse (`Contracted.lean`).
6. **Other components**: the GLSL library and the C++ class its tests compile it with (`Verif/Glsl`), the C interface (`Verif/CApi`), the symbolic
   engine `sym/` with its tokenizer, parser, evaluator and printing (`Verif/Sym`), the instructions of the
   listings in docs/perf.md (`Verif/Asm`).
7. **Specification** (`Verif/Spec`): multivectors of Cl(3,0,1) (16 coefficients), grades, wedge, inner
   product, duality, reversion; shown isomorphic to Mathlib's `CliffordAlgebra` of diag(0,1,1,1)
   (`Clifford.lean`) and, with the wedge, to its `ExteriorAlgebra` (`Exterior.lean`); blades of any
   signature (`Blade.lean`); elementary Euclidean notions (`Euclid.lean`), rotations by Rodrigues'
   formula.  None of it mentions the model.

## Per property

| id | modelled | proof |
|----|----------|-------|
| C01-C07 | gp00 gp03 gp11 gp33 gpLL gpRT gp12 gpMM gpDL + operators | coefficient comparison with the Clifford product, `ring` |
| C08-C10 | all meet/join/inner overloads | same, against grade projections |
| C11 | `!` | structural |
| C12-C15 | sw00 .. swo12 + call operators | sandwich in the algebra, `ring` |
| C16 | products and actions | from C06, C13-C15 by associativity and reversion |
| C17, C18 | motor action | algebra, using m ~m = 1 |
| C19-C22 | join/meet/project/norm | Euclidean specification |
| C23 | rcp_nr1 rsqrt_nr1 | error analysis with the estimate as parameter |
| C24, C25 | normalize of each entity | exact and quantitative; plane: negation with witness + `_partial` |
| C26-C28 | invert of each entity | exact; rotor and point: negation with witness + `_partial` |
| C29 | sqrt | algebra |
| C30-C33 | constructors | trigonometry in ℝ; C33: negation + the true relation |
| C34-C36 | exp/log | ℝ, `Real.sin` etc.; C36: negation at half turns + `_partial` |
| C37 | Euler angles | negation with witness + `_partial` away from the wrong gimbal test |
| C38, C39 | mat4x4_12 | coefficient comparison; C39: dependence on uninitialised memory + `_partial` |
| C40, C41 | array overloads on memory | induction on count; C41: negation in program order |
| C42, C43 | both builds / both language paths | equality of definitions |
| C44-C49 | sign-bit operations, comparisons, accessors, assignments | law-free or on bit patterns; C47: negation |
| C50, C51 | GLSL, C interface | equality with the C++ model |
| C52 | scalings, sums | laws of the algebra |
| C53 | non-finite results | lanes `Fp` (reals and one non-finite value); binary32 at selected inputs |
| C54 | rounding errors of products, meets, joins, actions | error calculus `Near`, one rule per operation |
| C55-C59 | sym/ga, sym/poly, sym/mv | Clifford algebra of any signature, Laurent polynomials, order axioms, with distinct UB outcomes |
| C60-C66 | sym/parser, sym/main | state machines with distinct UB / divergence outcomes; negations with concrete input lines |
| C67 | norm functions | exact; `plane::norm` with the estimate's accuracy |
| C68 | products, actions, meets | transport along the two isomorphisms |
| C69 | overflow of ring operations in binary32 | exponent bounds `Le2`, one rule per operation |
| C70 | normalize in binary32 | `rsqrt1_f32`, `rcp1_f32` under the estimate accuracy `Hw.Contract32` |
| C71 | the repository's tests in binary32 | kernel evaluation on bit patterns; the reference `sin`, `cos`, `acos`, `asin`, `atan2` are proved accurate |
| C72 | sym/test.cpp | kernel evaluation of the model of `sym/` |
| C73 | scripts/validation.klein | kernel evaluation of the parser on each line, then ring identities with the library model |
| C74 | interpolation in docs/quickstart.md and docs/case_studies | exp/log closed forms, rigidity (C17), one-parameter group (C35) |
| C75 | worked examples in docs/geometry-potpourri.md, ga_skeletal_animation.md | products and metric formulas (C20-C25) |
| C76 | normalised motors as rigid motions | rigidity (C17), composition (C16), reflections (C12); Shepperd's construction of a rotor from a rotation matrix |
| C77 | `animate_keyframe` in docs/case_studies | composition (C16), array application (C40, C41) |
| C78 | inverses, scalar quotients, norms, roots in binary32 | `F32.Ap`: value, scale and relative error carried through each operation |
| C79 | exp, log, axis constructors in binary32 | `F32.Ap` with a C library accurate to two units in the last place (`Libm.Contract32`) |
| C80 | Chasles' theorem | `Euclid.screw`, `Euclid.Rigid`: the polar form of a motor about its axis |
| C81 | dual quaternions, group | Mathlib's `DualNumber (Quaternion K)`, `Group`, `MulAction`, `MonoidHom` |
| C82 | powers and roots | the `n`-fold product in the algebra |
| C83 | dual number times line | `Euclid.screw` |
| C84 | transformations between entities | reflections, rotations and screws of `Euclid`; the axis of a motor |
| C85 | compound assignment of an object to itself in sym | the loops over a container they modify, with erased iterators as undefined behaviour |
| C86 | binary32 coefficients in sym | `F32.ofZ`: integers of magnitude at most 2^24; simulation of the operations over ℤ |
| C87 | `repl::run` as a whole | text of `cin` to texts of `cout`, `cerr`; the lines of a text |
| C88 | `hash<mon>`, printing of tokens | bit vectors of any width; a stream with its base |
| C89 | constants of util.hpp | closest float (`Verif/Float/Order.lean`), Mathlib's bounds of π and e |
| C90 | products, meets, joins, projections, actions in binary32 | real arithmetic; error bounds computed and checked by reflection (`Verif/Float/Expr.lean`) |
| C91 | long products of motors in binary32 | quaternion norms; the exact product and the exact image |
| C92 | matrices and shaders in binary32 | the exact action; error bounds computed and checked by reflection |
| C93 | quotients in binary32 | the exact quotient; the difference of two positions |
| C94 | contraction to fused multiply-adds | the set of values a contracting compiler may compute (`Ex.Can`); the exact operation |
| C95 | screw constructor, powers, exp of log in binary32 | exact exponential (Lipschitz, `ExpLip`), `F32.Ap`, `Motor.fix` |
| C96 | logarithm of half turns in binary32 | signed zeros of `F32`, Annex F (`Libm.AnnexF`) |
| C97 | interpolation of rotors in binary32 | closed formula over the reals (C74), `Ap`, Lipschitz bounds |
| C98 | interpolation of motors in binary32 | exact recipe over the reals (C74), Lipschitz bounds of log and exp |
| C99 | Euler angles in binary32 | exact angles over the reals (C37), perturbation of `arg` and `arcsin` |
| C100 | interpolation between equal orientations in binary32 | linear interpolation of the translation, exact cancellation |
| C101 | `nlerp` in binary32 | bound on each lane of the normalised linear interpolation, NaN between opposite motors |
| C102 | demo.klein, test.klein and docs/shell.md | engine and library agree on every line; the documented answer is wrong |
| C103 | fixed points of the actions (docs/overview.md) | characterised; rotors, translators and motors as products of planes |
| C104 | scripts with `float` coefficients | equal to the integer results on every line; executable check for other lines |
| C105 | listings of docs/perf.md | x86 model; Klein's equal the kernels, RTM and GLM products equal up to order, GLM dual quaternion listing is another function |
| C106 | `glsl_shim.hpp` | statements with a GLSL and a C++ meaning; equal exactly on safe statements; klein.glsl bit for bit |
| C107 | orbits of points in binary32 | induction over the steps with C90, in the norm of the quaternions of C81 |
| C108 | products normalised at every step in binary32 | induction over the steps with C70 and C90; normalisation is a homomorphism of the dual quaternions |
| C109 | points placed by a motion normalised at every step | C107 for one step, C108 for the motor |
| C110 | integrating a velocity in binary32 | C79 for one exponential, C108 for the loop, C82 for a constant velocity |
| C111 | forward kinematics in binary32 | C77 for the loop, C107 for the motors on the way to a joint |
| C112 | planes and lines moved step by step in binary32 | the recursion `Track`, C90 for each step, C107 for the point |
| C113 | normalisation and inverses with fused multiply-adds | the lane type `Fl ω`, errors of unrounded products tracked by `ApF` |
| C114 | chains of motors, moving points and kinematics with fused multiply-adds | the invariants of C91 and C107 with each step one of the values of C94 |
| C115 | moving planes and lines with fused multiply-adds | the recursion `Track` of C112 with each step one of the values of C94 |
| C116 | motions normalised at every step with fused multiply-adds | the recursions `exact`, `exactM` of C108 with each product one of the values of C94 and each normalisation one of C113 |
| C117 | exponentials and logarithms with fused multiply-adds | the exact exponential and logarithm on the reals, as in C79 |
| C118 | integrating a velocity with fused multiply-adds | the recursions `spun`, `moved` of C110 on quaternions and dual quaternions |
| C119 | constructors from axes and Euler angles with fused multiply-adds | the exact constructors on the reals, as in C79 |
| C120 | screw motions and powers of motors with fused multiply-adds | the exact screw motion, power and normalised motor on the reals, as in C95 |

## What the code gets wrong (each proved, with a witness)

1. `motor::operator=(translator)` sets the rotor part to 0 instead of 1 (C47).
2. `rotor::invert` divides by the squared norm without the scalar part (C26).
3. `plane::normalize` multiplies d by the wrong factor or not at all, depending on the build (C25, C42).
4. `point::invert` gives a point whose product with the original is -1 (C28).
5. `log(motor)` of a half turn is 0; with scalar -1 its translation is opposite (C36).
6. `exp` of the zero branch and `log` of the identity rotor evaluate 0/0 (C34, C53).
7. The array overloads, applied in place as the documentation allows, violate `restrict` and, in program
   order, give wrong results (C41).
8. `rotor::as_mat4x4` and `as_mat3x4` read an uninitialised fourth column (C39).
9. `rotor{ang, axis}` turns opposite to `motor{ang, d, line}` about the same axis (C33).
10. `as_euler_angles` has a wrong gimbal-lock test (C37).
11. `line * line` exchanges e23 and e12 (C05), and so does `line / line`; `sqrt(l1 * l2)` inherits it (C29).
12. Unary minus of plane and point leaves lane 0 alone (C48).
13. The two instruction sets differ in the padding lanes they read (C42); well-formedness (C49) is what
    makes them agree.
14. Three comments of the C header describe another value, and so do its lane orders (C51).
15. `==` is documented as bitwise but is not; `approx_eq` of equal infinite lanes is false (C45).
16. `_mm_store_ps` into `float out[4]`, which need not be 16-byte aligned (C46).
17. The motor of an unnormalised motor's `log` has its e0123 in an unused lane (C49).
18. Symbolic engine: `uint8_t` truncation beyond eight dimensions (C55), shift and encoding at 31
    dimensions (C56), `int` overflow of exponents (C57, C58), zero coefficients kept (C58), a multivector
    without an algebra (C59), `m -= m` uses an erased iterator (C85), and integer coefficients past 2^24
    are rounded, so that terms are lost (C86).
19. Symbolic shell: the tokenizer does not terminate on some inputs (C60), overflows a 32-byte buffer
    (C61), accepts digits 8 and 9 and out-of-range indices (C63), ignores input after a parenthesis
    (C64), lets a `#` or `.` anywhere on the line decide (C65), prints what it cannot read (C66), and
    printing a token leaves the stream in base 16 (C88).
20. Documentation: slerp between motors a half turn apart stays put, and the norm of the linear
    interpolation is misstated (C74); a plane is read with the wrong sign (C75); the forward kinematics
    multiplies the poses of a skeleton in the opposite order (C77); a dual number times a line gives four
    times the documented amounts (C83); `~sqrt(a * b)` of branches does not take b to a, and the
    projection of a plane to a line has the opposite orientation (C84); the weight of a normalised point
    need not be exactly 1 in binary32 (C70).
21. With fused multiply-adds lane 0 of a meet of planes is not zero and the weight of a projected point
    is inaccurate (C94); the build files of the library do not enable them.
22. In binary32 the logarithm of a half turn without translation depends on the sign of a zero: its
    angle is -pi, or 0 with SSE3 and an axis with three negative lanes, never pi/2 (C96).
23. In binary32 the scalar part of `a * ~a` can round to a number above one for a rotor that is as close
    to a unit rotor as floats allow; the logarithm and the interpolation of `a` with itself are then NaN (C97).
24. In binary32 the logarithm of every rotation by less than about a fortieth of a degree is NaN: the
    scalar part is stored as 1, and the logarithm divides by the sine of its arc cosine (C97).
25. In binary32 the interpolation of a rotor with itself is NaN for every rotor, since the bivector part of
    `a * ~a` cancels exactly (C100).  For motors it does not cancel exactly; if the square of what remains
    underflows, the interpolation of a motor with itself is NaN as well.
26. The answer of the shell printed in docs/shell.md is not the one the shell gives for the input above it
    (C102).
27. docs/perf.md sets the application of a motor to a point against a GLM listing that computes something
    else: `mat3x4 * vec4` in GLM turns the vector by the inverse rotation and never translates it (C105).
28. The `vec4` of test/glsl_shim.hpp is not the one of GLSL: `v *= v.x` multiplies the later components by
    the square, and `v.x = u.x` does nothing (C106).  klein.glsl uses neither.

## Trusted base

- Lean's kernel.  Every theorem depends on at most the axioms `propext`, `Classical.choice` and
  `Quot.sound`; there is no `sorry`, no added axiom, no `native_decide`.  Bit-level facts about concrete
  values are evaluated by the kernel (`decide +kernel`).
- The transcription of the C++ text into the model (each definition cites file and lines).
- The semantics of the intrinsics in `Verif/Simd.lean`, of the instructions in `Verif/Asm/X86.lean` and
  of binary32 in `Verif/Float/Binary32.lean` (round to nearest even, no flush to zero, quiet NaN propagation as on x86).  `Verif/Float/Fast.lean` proves these operations equal to versions on natural numbers, used only to evaluate closed tests faster.  Two checks on these:
  `Verif/Float/Order.lean` and the evaluation of the repository's tests (C71).
- `libm` functions are the real functions where a theorem speaks of `Libm.real`; in binary32 they are
  accurate to two units in the last place (`Libm.Contract32`) and, in C96, follow Annex F of the C
  standard at zeros (`Libm.AnnexF`), C97 that `acos` returns a NaN outside its domain (`Libm.AcosDomain`) and what `acos(1)`, `sin(0)`, `rcpps(0)` and `rsqrtps(0)` are (`AtOne`), C99 the accuracy of `asin` and of `π/2`, an exact `abs` and an exact `<` (`Libm.Euler32`).  The accuracy of the reciprocal estimates is that of the Intel manual.

Not modelled: compiler optimisations that are not value preserving (`-ffast-math`), exceptions and
floating-point flags, the NEON-through-simde build, the allocator and iostreams of the symbolic engine
(containers are lists, output is a list of characters), and the benchmarks of the
repository.

A theorem with suffix `_partial` proves the property under an extra hypothesis; `_fails` is the negation
without it, with a witness.  `tools/status.py` says for each property what is missing.
