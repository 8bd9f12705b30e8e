{"id": "C01", "title": "plane*plane is the PGA geometric product", "statement": "For all planes a, b the rotor/motor returned by `a * b` is, coefficient for coefficient, the geometric product of the vectors a and b in the Clifford algebra Cl(3,0,1) (e0^2=0, e1^2=e2^2=e3^2=1), in both the SSE3 and the SSE4.1 build.", "quantifier": "all pairs of planes over every commutative ring of lane values (exact arithmetic), both instruction-set builds", "why_tests_cant": "8-dimensional input space; a wrong sign in one shuffled lane only shows for inputs that exercise that lane combination", "anchors": ["public/klein/detail/x86/x86_geometric_product.hpp: gp00", "public/klein/geometric_product.hpp: operator*(plane, plane)"]}
{"id": "C02", "title": "plane*point and point*plane are the PGA geometric product", "statement": "`p * P` and `P * p` return the motor equal to the geometric product of the plane vector and the point trivector, in each order.", "quantifier": "all planes, all (also non-normalised) points, both operand orders, both builds", "why_tests_cant": "the two orders share a template with a sign flip; samples cannot rule out a sign error in an untested coefficient", "anchors": ["public/klein/detail/x86/x86_geometric_product.hpp: gp03", "public/klein/geometric_product.hpp: operator*(plane, point), operator*(point, plane)"]}
{"id": "C03", "title": "rotor*rotor and branch*branch are the PGA geometric product", "statement": "`a * b` for rotors (and for branches, lines through the origin) equals the geometric product of the even elements.", "quantifier": "all pairs of rotors / branches", "why_tests_cant": "infinitely many inputs; associativity and composition depend on all 16 sign choices being right", "anchors": ["public/klein/detail/x86/x86_geometric_product.hpp: gp11", "public/klein/geometric_product.hpp: operator*(rotor, rotor), operator*(branch, branch)"]}
{"id": "C04", "title": "point*point gives the translator by twice the displacement", "statement": "For points P, Q with non-zero homogeneous weights, `P * Q` (and `P / Q`) is the translator obtained from the geometric product after dividing by its scalar part; applying it to a point displaces it by twice the vector from Q to P, and the square root of that translator takes Q to P.", "quantifier": "all pairs of points with non-zero weights (normalised or not)", "why_tests_cant": "weights and coordinates range over a continuum, and the documented meaning is geometric, not a table of values", "anchors": ["public/klein/detail/x86/x86_geometric_product.hpp: gp33", "public/klein/geometric_product.hpp: operator*(point, point), operator/(point, point)", "public/klein/motor.hpp: sqrt(translator)"]}
{"id": "C05", "title": "line*line is the PGA geometric product", "statement": "`a * b` for two lines is the motor equal to the geometric product of the two bivectors.", "quantifier": "all pairs of lines whose unused scalar lanes are zero (the documented representation)", "why_tests_cant": "12-dimensional input; the kernel reads the second half of each operand by pointer arithmetic on the first", "anchors": ["public/klein/detail/x86/x86_geometric_product.hpp: gpLL", "public/klein/geometric_product.hpp: operator*(line, line)"]}
{"id": "C06", "title": "all rotor/translator/motor products are the PGA geometric product", "statement": "Every overload of `*` between rotors, translators and motors returns the geometric product of its operands (a translator carries an implicit scalar 1).", "quantifier": "all pairs of operands of each of the 8 overloads", "why_tests_cant": "the overloads use different hand-optimised kernels whose signs are independent of each other", "anchors": ["public/klein/detail/x86/x86_geometric_product.hpp: gp11, gpRT, gp12, gpMM", "public/klein/geometric_product.hpp: operator*"]}
{"id": "C07", "title": "dual*line and line*dual are the PGA geometric product", "statement": "Multiplying a line by a dual number p + q e0123 on either side (and scaling an ideal line) equals the geometric product and is commutative.", "quantifier": "all dual numbers and all lines", "why_tests_cant": "continuum of inputs", "anchors": ["public/klein/detail/x86/x86_geometric_product.hpp: gpDL", "public/klein/geometric_product.hpp: operator*(dual, line), operator*(line, dual)"]}
{"id": "C08", "title": "meet operators are the exterior product", "statement": "Every overload of `^` (plane/plane, plane/line, plane/branch, plane/ideal line, plane/point, line/line, line/branch, line/ideal line and the swapped orders) returns the exterior product of its operands: the part of the geometric product of grade the sum of the grades.", "quantifier": "all operands of all overloads, both builds", "why_tests_cant": "around twenty overloads, several delegating to each other with possibly wrong sign under swapping", "anchors": ["public/klein/meet.hpp", "public/klein/detail/x86/x86_exterior_product.hpp: ext00, extPB, ext02, ext03"]}
{"id": "C09", "title": "join operators are the regressive product", "statement": "Every overload of `&` equals J(J(a) ^ J(b)) where J is the documented Poincare duality map.", "quantifier": "all operands of all overloads", "why_tests_cant": "overloads are written through duals of other types whose lanes coincide only if the basis conventions agree", "anchors": ["public/klein/join.hpp"]}
{"id": "C10", "title": "`|` is the symmetric inner product", "statement": "Every overload of `|` returns the part of the geometric product whose grade is the absolute difference of the operand grades.", "quantifier": "all operands of all overloads (well-formed lines), both builds", "why_tests_cant": "continuum of inputs; two builds with different lane tricks", "anchors": ["public/klein/inner_product.hpp", "public/klein/detail/x86/x86_inner_product.hpp: dot00, dot03, dot11, dot33, dotPTL, dotPIL, dotPL"]}
{"id": "C11", "title": "`!` is the Poincare dual and an involution", "statement": "`!` maps each entity to the documented dual entity, agrees with J on the algebra and `!!x` is x bit for bit.", "quantifier": "all planes, points, lines, branches, ideal lines and dual numbers, all bit patterns", "why_tests_cant": "involution must hold for every value", "anchors": ["public/klein/join.hpp: operator!", "public/klein/dual.hpp"]}
{"id": "C12", "title": "plane call operator is the reflection p X p", "statement": "Applying a plane p to a plane, line or point returns the sandwich p X p; for a plane with unit normal the point result is the mirror image of the point, the reflection is an involution and preserves distances.", "quantifier": "all planes and all operands; geometric part for all unit-normal planes and all points of non-zero weight", "why_tests_cant": "continuum of inputs", "anchors": ["public/klein/plane.hpp: operator()", "public/klein/detail/x86/x86_sandwich.hpp: sw00, sw10, sw20, sw30"]}
{"id": "C13", "title": "rotor call operator is r X ~r", "statement": "Applying a rotor to a plane, branch, line, point or direction returns exactly the sandwich r X ~r, without any normalisation assumption.", "quantifier": "all rotors and all operands", "why_tests_cant": "cubic polynomials in 4+4 or 4+8 variables; tests fix a handful of points", "anchors": ["public/klein/rotor.hpp: operator()", "public/klein/detail/x86/x86_sandwich.hpp: swMM, sw012"]}
{"id": "C14", "title": "translator call operator is t X ~t", "statement": "Applying a translator to a plane, line or point returns t X ~t; a point of weight w moves by w times the translation vector, directions of planes and lines are unchanged.", "quantifier": "all translators and operands", "why_tests_cant": "continuum of inputs and two builds", "anchors": ["public/klein/translator.hpp: operator()", "public/klein/detail/x86/x86_sandwich.hpp: sw02, swL2, sw32"]}
{"id": "C15", "title": "motor call operator is m X ~m", "statement": "Applying a motor to a plane, line, point, direction or the origin returns m X ~m (the origin form requires a normalised motor).", "quantifier": "all motors and operands", "why_tests_cant": "quartic expansions over up to 16 variables", "anchors": ["public/klein/motor.hpp: operator()", "public/klein/detail/x86/x86_sandwich.hpp: swMM, sw012, sw312, swo12"]}
{"id": "C16", "title": "composition law of actions", "statement": "(a * b)(X) = a(b(X)) for rotors, translators and motors in every mixed order, on planes, lines and points.", "quantifier": "all actions, all operands, all mixed products", "why_tests_cant": "a law over three independent continuous arguments", "anchors": ["public/klein/geometric_product.hpp", "public/klein/motor.hpp", "public/klein/rotor.hpp", "public/klein/translator.hpp"]}
{"id": "C17", "title": "normalised motors are orientation-preserving rigid motions", "statement": "A motor with m ~m = 1 keeps the weight of every point, preserves the Euclidean distance of every pair of points and the orientation (signed volume) of every four points; unnormalised motors scale weights by the squared norm.", "quantifier": "all normalised motors (a 6-dimensional manifold) and all points", "why_tests_cant": "no finite sample shows an isometry", "anchors": ["public/klein/motor.hpp: operator()(point)", "public/klein/detail/x86/x86_sandwich.hpp: sw312"]}
{"id": "C18", "title": "actions commute with meet, join and inner product", "statement": "For a normalised motor m, m(a ^ b) = m(a) ^ m(b), m(a & b) = m(a) & m(b) and m(a) | m(b) equals m applied to a | b (scalars unchanged).", "quantifier": "all normalised motors and all operands", "why_tests_cant": "covariance is a law over continuous families", "anchors": ["public/klein/motor.hpp", "public/klein/meet.hpp", "public/klein/join.hpp", "public/klein/inner_product.hpp"]}
{"id": "C19", "title": "join incidence", "statement": "The join of two points is a line through both, the join of three points (or a point and a line) is a plane containing all of them; it degenerates to zero exactly when the operands are coincident/collinear (incident).", "quantifier": "all points of non-zero weight, all lines", "why_tests_cant": "degenerate configurations form a measure-zero set tests rarely hit", "anchors": ["public/klein/join.hpp"]}
{"id": "C20", "title": "meet incidence", "statement": "The meet of two planes is a line consisting of exactly the points on both, the meet of three planes (or a plane and a line) is a point on all of them, or ideal/zero when parallel/contained.", "quantifier": "all planes and lines", "why_tests_cant": "degenerate configurations", "anchors": ["public/klein/meet.hpp"]}
{"id": "C21", "title": "projections land on the target and are orthogonal", "statement": "`project(P, l)`, `project(P, p)`, `project(l, p)`, `project(l, P)`, `project(p, P)`, `project(p, l)` return entities incident with the second argument; the projected point is the closest point of the target to P.", "quantifier": "all operands with non-degenerate target", "why_tests_cant": "closest-point is a universally quantified inequality", "anchors": ["public/klein/projection.hpp"]}
{"id": "C22", "title": "norms and inner products are Euclidean measurements", "statement": "The norm of the join of two normalised points is their distance; the join of a normalised point and unit plane is the signed distance up to sign; the norm of the join of a normalised point and unit line is their distance; the inner product of unit planes is the cosine of their angle.", "quantifier": "all normalised operands", "why_tests_cant": "continuum of inputs", "anchors": ["public/klein/line.hpp: norm", "public/klein/plane.hpp: norm", "public/klein/join.hpp", "public/klein/inner_product.hpp"]}
{"id": "C23", "title": "accuracy of the Newton-refined reciprocal and reciprocal square root", "statement": "If the hardware estimate of 1/a (1/sqrt a) has relative error d then the refined value has relative error exactly -d^2 (-(3/2)d^2 - d^3/2); with the documented |d| <= 1.5*2^-12 the error is below 1.4e-7 (2.1e-7). An exact estimate is a fixed point.", "quantifier": "all lane values a != 0 (a > 0), every estimate function meeting the documented bound", "why_tests_cant": "2^32 inputs times vendor-specific estimate tables", "anchors": ["public/klein/detail/x86/x86_sse.hpp: rcp_nr1, rsqrt_nr1, sqrt_nr1"]}
{"id": "C24", "title": "normalize() produces unit entities", "statement": "After normalize() the plane normal, line, branch, rotor, motor, direction has unit norm (motor and line including the e0123 part: m ~m = 1, l^2 = -1) and the point weight is 1, exactly for exact estimates and within an explicit bound for estimates meeting the hardware contract.", "quantifier": "all non-degenerate entities, all estimate functions meeting the contract", "why_tests_cant": "error bounds are universally quantified inequalities", "anchors": ["public/klein/plane.hpp: normalize", "public/klein/line.hpp: normalize", "public/klein/rotor.hpp: normalize", "public/klein/motor.hpp: normalize", "public/klein/point.hpp: normalize", "public/klein/direction.hpp: normalize"]}
{"id": "C25", "title": "normalising an entity does not move it", "statement": "normalize() only rescales: the normalised plane contains the same points as the original, the normalised point is the same Euclidean point, the normalised motor/rotor acts the same way on points.", "quantifier": "all non-degenerate entities, both builds", "why_tests_cant": "the existing test only checks the norm of the result", "anchors": ["public/klein/plane.hpp: normalize", "public/klein/point.hpp: normalize", "public/klein/rotor.hpp: normalize", "public/klein/motor.hpp: normalize", "public/klein/line.hpp: normalize"]}
{"id": "C26", "title": "inverse() of plane, branch, line, translator and motor is a two-sided inverse", "statement": "x * x.inverse() = x.inverse() * x = 1 in the algebra whenever the norm is non-zero, so a / b * b = a.", "quantifier": "all entities with non-zero norm", "why_tests_cant": "continuum of inputs; existing tests use one sample each", "anchors": ["public/klein/plane.hpp: invert", "public/klein/line.hpp: invert", "public/klein/translator.hpp: invert", "public/klein/motor.hpp: invert"]}
{"id": "C27", "title": "inverse() of a rotor is its inverse", "statement": "r * r.inverse() = 1 and hence (a / r) * r = a, for every non-zero rotor.", "quantifier": "all non-zero rotors", "why_tests_cant": "the only test of rotor division multiplies back nothing and uses one sample", "anchors": ["public/klein/rotor.hpp: invert, inverse", "public/klein/geometric_product.hpp: operator/(rotor, rotor), operator/(motor, rotor)"]}
{"id": "C28", "title": "inverse() of a point is its inverse", "statement": "P * P.inverse() = 1 in the algebra for every point of non-zero weight.", "quantifier": "all points of non-zero weight", "why_tests_cant": "sign convention is invisible to projective tests", "anchors": ["public/klein/point.hpp: invert"]}
{"id": "C29", "title": "sqrt halves an action", "statement": "For a normalised rotor, motor or translator x other than the antipode of the identity, sqrt(x) is normalised and sqrt(x)*sqrt(x) = x; sqrt(a*b) for unit planes a, b takes b to a up to sign.", "quantifier": "all normalised actions with x != -1", "why_tests_cant": "continuum of inputs", "anchors": ["public/klein/rotor.hpp: sqrt", "public/klein/motor.hpp: sqrt", "public/klein/translator.hpp"]}
{"id": "C30", "title": "rotor constructor builds the rotation by the given angle", "statement": "rotor(ang, x, y, z) is a unit rotor, fixes the points of its axis, turns vectors orthogonal to the axis by the angle ang (in the library's orientation), rotor(a)*rotor(b)=rotor(a+b) about the same axis, and angle 2*pi acts as the identity.", "quantifier": "all angles, all non-zero axes, all points", "why_tests_cant": "trigonometric identities over continuous parameters", "anchors": ["public/klein/rotor.hpp: rotor(float, float, float, float)"]}
{"id": "C31", "title": "translator constructor translates by delta along the axis", "statement": "translator(delta, x, y, z) maps a point P to P + delta * (x,y,z)/|(x,y,z)|.", "quantifier": "all deltas, non-zero axes, points", "why_tests_cant": "continuum of inputs", "anchors": ["public/klein/translator.hpp: translator(float, float, float, float)"]}
{"id": "C32", "title": "screw constructor", "statement": "motor(ang, d, l) for a unit line l is normalised, maps l to itself, rotates by ang about l and translates by d along l; motor(ang,d,l)*motor(ang2,d2,l) = motor(ang+ang2, d+d2, l).", "quantifier": "all angles, displacements and unit lines", "why_tests_cant": "continuum of inputs", "anchors": ["public/klein/motor.hpp: motor(float, float, line)", "public/klein/detail/x86/x86_exp_log.hpp: exp"]}
{"id": "C33", "title": "rotor and screw constructors turn the same way", "statement": "rotor(ang, axis) and motor(ang, 0, line through the origin along axis) represent the same rotation.", "quantifier": "all angles and axes", "why_tests_cant": "no test compares the two constructors", "anchors": ["public/klein/rotor.hpp: rotor(float, float, float, float)", "public/klein/motor.hpp: motor(float, float, line)"]}
{"id": "C34", "title": "rotor exp/log round trip", "statement": "exp(log(r)) = r for every unit rotor with non-zero bivector part and log(exp(b)) = b for branches with norm in (0, pi); exp of a branch is a unit rotor and exp((s+t)b) = exp(sb)exp(tb).", "quantifier": "all unit rotors / branches in the stated domain", "why_tests_cant": "transcendental identities", "anchors": ["public/klein/rotor.hpp", "public/klein/exp_log.hpp: log(rotor), exp(branch)"]}
{"id": "C35", "title": "exp of a line is the exponential of the bivector", "statement": "exp(l) satisfies exp((s+t)l) = exp(sl)exp(tl), exp(0) = 1 and d/dt exp(tl) = l exp(tl); it is the sum of the power series of l in the algebra; the result is a normalised motor.", "quantifier": "all lines (bivectors, simple or not), all real s, t", "why_tests_cant": "infinite series over a continuum", "anchors": ["public/klein/detail/x86/x86_exp_log.hpp: exp", "public/klein/exp_log.hpp: exp(line), exp(ideal_line)"]}
{"id": "C36", "title": "motor exp/log round trip", "statement": "exp(log(m)) = m for every normalised motor.", "quantifier": "all normalised motors", "why_tests_cant": "the failing motors form a thin set (half-turns)", "anchors": ["public/klein/detail/x86/x86_exp_log.hpp: log", "public/klein/exp_log.hpp: log(motor)"]}
{"id": "C37", "title": "Euler angle round trip", "statement": "rotor(r.as_euler_angles()) equals r or -r for every unit rotor.", "quantifier": "all unit rotors", "why_tests_cant": "the failing rotors are a neighbourhood that samples can miss; existing test uses one sample", "anchors": ["public/klein/rotor.hpp: rotor(euler_angles), as_euler_angles"]}
{"id": "C38", "title": "matrix conversion agrees with the action", "statement": "For a normalised motor m, as_mat4x4() (and as_mat3x4()) applied to (x,y,z,1) gives the coordinates of m(point(x,y,z)); the product of matrices of motors is the matrix of the product.", "quantifier": "all normalised motors and points, both builds", "why_tests_cant": "16 bilinear identities over continuous inputs", "anchors": ["public/klein/motor.hpp: as_mat4x4, as_mat3x4", "public/klein/detail/x86/x86_matrix.hpp: mat4x4_12", "public/klein/mat4x4.hpp", "public/klein/mat3x4.hpp"]}
{"id": "C39", "title": "rotor matrix conversion is well defined", "statement": "rotor::as_mat4x4()/as_mat3x4() returns the rotation matrix with zero translation column, independently of the previous memory contents.", "quantifier": "all rotors, all initial memory contents, both builds", "why_tests_cant": "a test passes or fails depending on stack garbage", "anchors": ["public/klein/rotor.hpp: as_mat4x4, as_mat3x4", "public/klein/detail/x86/x86_matrix.hpp: mat4x4_12<false, true>"]}
{"id": "C40", "title": "array application equals element-wise application", "statement": "Applying a rotor/motor to an array of count planes/lines/points/directions with non-overlapping input and output writes, bit for bit, the element-wise single results to out[0..count) and changes no other memory.", "quantifier": "all counts, all memories, all (law-free) lane arithmetic", "why_tests_cant": "unbounded count and arbitrary memory", "anchors": ["public/klein/motor.hpp: operator()(plane*, plane*, size_t) etc.", "public/klein/rotor.hpp", "public/klein/detail/x86/x86_sandwich.hpp: sw012, sw312, swMM"]}
{"id": "C41", "title": "in-place array application", "statement": "The documented in == out form gives the same result as applying to a separate output array.", "quantifier": "all counts and memories", "why_tests_cant": "compilers may or may not cache the loads, so a test only sees one compilation", "anchors": ["public/klein/motor.hpp: operator()(plane*, plane*, size_t)", "public/klein/detail/x86/x86_sandwich.hpp: sw012, sw312, swMM"]}
{"id": "C42", "title": "SSE3 and SSE4.1 builds agree", "statement": "Every kernel with an `#ifdef KLEIN_SSE_4_1` alternative returns the same value in both builds on well-formed operands in exact arithmetic.", "quantifier": "all operands", "why_tests_cant": "CI runs each build on its own fixed samples only", "anchors": ["public/klein/detail/x86/x86_sse.hpp", "public/klein/detail/x86/x86_inner_product.hpp", "public/klein/detail/x86/x86_matrix.hpp", "public/klein/plane.hpp: normalize", "public/klein/translator.hpp: operator()(plane)"]}
{"id": "C43", "title": "C++11 and C++17 code paths agree", "statement": "The template specialisations used before C++17 compute, operation for operation, the same values as the `if constexpr` versions.", "quantifier": "all operands, all counts, law-free lane arithmetic", "why_tests_cant": "the two paths are never compiled together", "anchors": ["public/klein/detail/x86/x86_sandwich_cxx11.inl", "public/klein/detail/x86/x86_matrix_cxx11.inl"]}
{"id": "C44", "title": "constrain picks the shortest-arc representative", "statement": "constrain() leaves the represented rotation/motion unchanged, makes the scalar part non-negative, only ever flips signs and is idempotent.", "quantifier": "all rotors and motors, including all bit patterns", "why_tests_cant": "sign-bit manipulation on arbitrary bit patterns", "anchors": ["public/klein/rotor.hpp: constrain", "public/klein/motor.hpp: constrain"]}
{"id": "C45", "title": "equality and approximate equality", "statement": "operator== is true exactly when all components compare equal; approx_eq(eps) is true exactly when every component differs by less than eps; both are symmetric and false when a NaN is present; the documented `bitwise` comparison is not literally bitwise (+0 == -0, NaN != NaN).", "quantifier": "all operands, all epsilons, all bit patterns", "why_tests_cant": "2^256 bit patterns", "anchors": ["public/klein/plane.hpp: operator==, approx_eq", "public/klein/motor.hpp: operator==, approx_eq", "public/klein/rotor.hpp", "public/klein/line.hpp"]}
{"id": "C46", "title": "component constructors, accessors, load and store round trip", "statement": "Each component accessor returns the value given to the constructor for that component (accessors with swapped indices its negation), load followed by store gives back the same four floats, and aligned stores are only defined for 16-byte aligned destinations.", "quantifier": "all component values (bit patterns), all addresses", "why_tests_cant": "2^128 values and alignment-dependent faults", "anchors": ["public/klein/plane.hpp", "public/klein/point.hpp: load, store", "public/klein/line.hpp", "public/klein/rotor.hpp", "public/klein/motor.hpp", "public/klein/direction.hpp", "public/klein/translator.hpp"]}
{"id": "C47", "title": "motor built from a translator or rotor", "statement": "Constructing a motor from a rotor/translator and assigning a rotor/translator to a motor give the same motor, with the same action as the source.", "quantifier": "all rotors and translators", "why_tests_cant": "no test covers the assignment operators", "anchors": ["public/klein/motor.hpp: motor(rotor), motor(translator), operator=(rotor), operator=(translator)"]}
{"id": "C48", "title": "reversion and negation", "statement": "~x is the algebra's reversion, ~(ab) = ~b ~a for products of motors, unary minus on rotors, motors, lines is negation; unary minus on planes and points flips only the three coordinates, leaving d / w untouched.", "quantifier": "all entities, all bit patterns", "why_tests_cant": "continuum of inputs", "anchors": ["public/klein/motor.hpp: operator~, operator-", "public/klein/rotor.hpp", "public/klein/line.hpp", "public/klein/plane.hpp: operator-(plane)", "public/klein/point.hpp: operator-(point), operator~"]}
{"id": "C49", "title": "well-formed representation is preserved", "statement": "Every operation that returns a line, branch, ideal line, direction or translator from well-formed operands returns one whose unused lane is zero, for every sequence of operations.", "quantifier": "all finite sequences of API operations starting from component constructors", "why_tests_cant": "unbounded sequences", "anchors": ["public/klein/line.hpp", "public/klein/meet.hpp", "public/klein/join.hpp", "public/klein/motor.hpp", "public/klein/rotor.hpp", "public/klein/inner_product.hpp"]}
{"id": "C50", "title": "GLSL shader library agrees with the C++ library", "statement": "The GLSL kln_mul and kln_apply functions compute the same results as the C++ operators on corresponding operands.", "quantifier": "all operands", "why_tests_cant": "requires a GPU; tests sample a few values", "anchors": ["glsl/klein.glsl"]}
{"id": "C51", "title": "C interface agrees with the C++ interface and with its documentation", "statement": "Each C entry point returns the same bits as the C++ operation it documents.", "quantifier": "all operands", "why_tests_cant": "only a couple of C functions are tested", "anchors": ["c_src/klein.h", "c_src/klein_c.cpp"]}
{"id": "C52", "title": "scaling, addition and division form vector-space operations", "statement": "+, -, * scalar on every entity are the coordinate-wise algebra operations, `/ s` is multiplication by a refined reciprocal with relative error at most the square of the estimate error, and compound assignments agree with the binary forms.", "quantifier": "all entities and scalars (s != 0 for division)", "why_tests_cant": "continuum of inputs", "anchors": ["public/klein/plane.hpp", "public/klein/point.hpp", "public/klein/line.hpp", "public/klein/rotor.hpp", "public/klein/motor.hpp", "public/klein/translator.hpp", "public/klein/direction.hpp", "public/klein/dual.hpp"]}
{"id": "C53", "title": "undefined (non-finite) results occur exactly at the degenerate inputs", "statement": "exp(branch), log(rotor), normalize, inverse, division and point products produce finite results whenever the relevant norm/weight is non-zero; at zero (exp of the zero branch, log of the identity rotor, inverse of the identity rotor) a division by zero is executed.", "quantifier": "all inputs", "why_tests_cant": "degenerate inputs are measure zero; the documentation does not mention them", "anchors": ["public/klein/exp_log.hpp", "public/klein/rotor.hpp: invert, normalize", "public/klein/detail/x86/x86_exp_log.hpp"]}
{"id": "C54", "title": "rounded arithmetic: inner and geometric products have small componentwise error", "statement": "If every lane operation is correctly rounded with unit roundoff u (no overflow/underflow), each component of plane|plane, rotor*rotor, motor*motor and motor(point) differs from the exact value by at most an explicit multiple of u times the sum of absolute values of its terms.", "quantifier": "all inputs, all rounding functions with |rnd(x) - x| <= u|x|", "why_tests_cant": "error bounds over 2^256 inputs", "anchors": ["public/klein/detail/x86/x86_sse.hpp: hi_dp, dp", "public/klein/detail/x86/x86_geometric_product.hpp: gp11, gpMM"]}
{"id": "C55", "title": "symbolic engine: blade product", "statement": "`algebra::mul` returns the signed basis blade equal to the product of two basis blades in the Clifford algebra of signature (p,q,r), for every algebra the constructor accepts.", "quantifier": "all signatures, all pairs of blades", "why_tests_cant": "unbounded family of algebras; the defect needs more than 8 dimensions", "anchors": ["sym/ga.cpp: algebra::mul"]}
{"id": "C56", "title": "symbolic engine: exterior, inner, reverse, dual and regressive blade operations", "statement": "`ext`, `dot`, `rev`, `dual`, `reg` agree with the grade projections of `mul`, the reversion sign, the documented Poincare dual and J(J(a)^J(b)).", "quantifier": "all blades of all supported algebras", "why_tests_cant": "unbounded family", "anchors": ["sym/ga.cpp: algebra::ext, dot, rev, dual, reg"]}
{"id": "C57", "title": "symbolic engine: monomial order", "statement": "operator< on monomials is a strict total order compatible with ==, as std::map requires.", "quantifier": "all monomials (any number of variables, any exponents, negative included)", "why_tests_cant": "std::map silently corrupts on a non-order", "anchors": ["sym/poly.cpp: operator<(mon), operator==(mon)"]}
{"id": "C58", "title": "symbolic engine: polynomial arithmetic is sound", "statement": "Evaluating p + q, p - q, p * q, -p, p*scalar at any assignment gives the sum, difference, product, negation, scaling of the evaluations, and no zero coefficient is stored by addition.", "quantifier": "all polynomials, all variable assignments", "why_tests_cant": "unbounded expressions", "anchors": ["sym/poly.cpp", "sym/poly.hpp"]}
{"id": "C59", "title": "symbolic engine: multivector arithmetic is sound", "statement": "Evaluating the coefficients of mv product/sum/exterior/inner/regressive/reverse gives the Clifford operation on the evaluated multivectors.", "quantifier": "all multivectors, all assignments", "why_tests_cant": "unbounded expressions", "anchors": ["sym/ga.cpp: mv"]}
{"id": "C60", "title": "symbolic shell: tokenizer terminates", "statement": "Tokenising any input string terminates with a token list ending in eof or an error.", "quantifier": "all input strings", "why_tests_cant": "non-termination shows as a hang only on particular endings", "anchors": ["sym/parser.cpp: tokenize"]}
{"id": "C61", "title": "symbolic shell: tokenizer stays within its buffer", "statement": "Number tokenisation never writes outside its fixed 32-byte buffer.", "quantifier": "all input strings", "why_tests_cant": "overflow needs at least 32 digits", "anchors": ["sym/parser.cpp: tokenize_number"]}
{"id": "C62", "title": "symbolic shell: parser never reads past the token list and respects precedence", "statement": "For every token list ending in eof, parsing terminates, never dereferences past the end, and products bind tighter than sums with left association.", "quantifier": "all token lists", "why_tests_cant": "unbounded inputs", "anchors": ["sym/parser.cpp: parse, parse_expr, parse_term, parse_factor"]}
{"id": "C63", "title": "symbolic shell: element literals", "statement": "An element literal e<d1>...<dk> is the signed basis blade equal to the product of the basis vectors d1 ... dk in the order written, is rejected if and only if an index is repeated, and only indices of the algebra are accepted.", "quantifier": "all literals", "why_tests_cant": "signs depend on the whole permutation; defects need the digits 8, 9 or an index outside the algebra", "anchors": ["sym/parser.cpp: tokenize_element"]}
{"id": "C64", "title": "symbolic shell: a line is read to its end", "statement": "If parsing succeeds, the result is the value of the whole line, not of a part of it.", "quantifier": "all token lists ending in eof", "why_tests_cant": "unbounded inputs; nothing reports the part left unread", "anchors": ["sym/parser.cpp: parse, parse_expr"]}
{"id": "C65", "title": "symbolic shell: comments, commands and expressions are told apart", "statement": "A line whose first non-space character is # is echoed and not parsed, one whose first is . is a command, a blank line is skipped and every other line is parsed.", "quantifier": "all lines", "why_tests_cant": "unbounded inputs", "anchors": ["sym/repl.cpp: repl::run"]}
{"id": "C66", "title": "symbolic shell: what is printed can be read back", "statement": "Parsing the text printed for a multivector gives that multivector.", "quantifier": "all multivectors", "why_tests_cant": "unbounded expressions; the defects need coefficients of +-1 or variables", "anchors": ["sym/ga.cpp: operator<<", "sym/poly.cpp: operator<<", "sym/parser.cpp: parse"]}
{"id": "C67", "title": "norm functions return the norm", "statement": "line::norm, branch::norm and plane::norm return the Euclidean length of the direction or normal and ideal_line::ideal_norm the length of its three components; the squared versions return the scalar part of x ~x.", "quantifier": "all lines, branches, ideal lines, planes with a non-zero normal", "why_tests_cant": "real-valued inputs", "anchors": ["public/klein/line.hpp: squared_norm, norm, ideal_norm, squared_ideal_norm", "public/klein/plane.hpp: norm"]}
{"id": "C68", "title": "the products are those of the Clifford and exterior algebras of Mathlib", "statement": "Under the isomorphism sending planes to vectors, plane*plane, rotor*rotor, motor*motor, plane(plane) and the motor actions are the products and sandwich products in CliffordAlgebra (x1^2+x2^2+x3^2) with its reversal, and the meets are the products in the ExteriorAlgebra on four dimensions; joins are the same up to Poincare duality.", "quantifier": "all inputs, any field, both instruction sets", "why_tests_cant": "identities between polynomials in up to 16 variables, and the absence of any lost information, over every field", "anchors": ["public/klein/geometric_product.hpp", "public/klein/meet.hpp", "public/klein/join.hpp", "public/klein/motor.hpp"]}
{"id": "C69", "title": "no overflow in binary32 within a stated range", "statement": "With binary32 lanes of magnitude at most 2^a and 2^b, every lane of the products, meets, joins, inner products, projections and versor actions is finite as long as the exponents the operation adds up, plus the number of additions, stay within 127.", "quantifier": "all binary32 inputs within the range, both instruction sets", "why_tests_cant": "2^128 and more inputs; overflow is silent and turns into NaN one operation later", "anchors": ["public/klein/geometric_product.hpp", "public/klein/meet.hpp", "public/klein/join.hpp", "public/klein/inner_product.hpp", "public/klein/projection.hpp", "public/klein/rotor.hpp", "public/klein/motor.hpp", "public/klein/plane.hpp"]}
{"id": "C70", "title": "normalisation is accurate in binary32", "statement": "With every operation rounded and rcpps/rsqrtps of the specified accuracy, normalising a plane, branch, line, direction, rotor or motor divides the lanes that make up its norm by the norm with relative error below 7.4e-7 and leaves a squared norm within 1.5e-6 of one; normalising a point divides by the weight with relative error below 3.8e-7.", "quantifier": "all binary32 inputs with lanes of magnitude at most 2^30 and norm (weight) at least 2^-30, all hardware within the specification, both instruction sets", "why_tests_cant": "real-valued quantities over 2^128 inputs and over hardware that differs between vendors", "anchors": ["public/klein/detail/x86/x86_sse.hpp: rsqrt_nr1, rcp_nr1", "public/klein/plane.hpp: normalize", "public/klein/line.hpp: normalize", "public/klein/rotor.hpp: normalize", "public/klein/motor.hpp: normalize", "public/klein/point.hpp: normalize", "public/klein/direction.hpp: normalize"]}
{"id": "C71", "title": "the model, run in binary32, reproduces the expected values of the repository's tests", "statement": "Every comparison of the repository's test suite holds when evaluated on bit patterns in the binary32 model, for the SSE3 and the SSE4.1 code; those that use rcpps or rsqrtps are evaluated with correctly rounded estimates, those that use sin, cos, acos or atan2 with an implementation whose relative error is at most 2^-24 plus an absolute 2^-32.", "quantifier": "the inputs of the tests, both instruction sets", "why_tests_cant": "this compares the model with the authors' recorded results, which are evidence about the compiled code", "anchors": ["test/test_gp.cpp", "test/test_ep.cpp", "test/test_rp.cpp", "test/test_ip.cpp", "test/test_sse.cpp", "test/test_metric.cpp", "test/test_sw.cpp", "test/test_exp_log.cpp", "test/test_glsl.cpp"]}
{"id": "C72", "title": "symbolic engine: the repository's own tests", "statement": "Every check of sym/test.cpp holds of the model of the symbolic engine, from the text of the line to the coefficients returned.", "quantifier": "the inputs of the tests", "why_tests_cant": "this compares the model with the authors' recorded results", "anchors": ["sym/test.cpp"]}
{"id": "C73", "title": "the symbolic engine and the library agree", "statement": "For every line of scripts/validation.klein, the multivector the symbolic engine returns, evaluated at any values of the variables, is the result of the library operation the line documents, or the product in the specification where the library has none.", "quantifier": "every line of the script, all values of the variables in any commutative ring, both instruction sets", "why_tests_cant": "polynomial identities in up to 16 variables between the outputs of two programs", "anchors": ["scripts/validation.klein", "sym/parser.cpp", "sym/ga.cpp", "public/klein"]}
{"id": "C74", "title": "interpolation of motors as documented", "statement": "The documented slerp, exp(t log(b ~a)) a, starts at a, ends at b, is a normalised motor at every t and moves every point with constant speed; for rotors it is the classical spherical interpolation. The documented nlerp starts at a, ends at b and is normalised. The formula the documentation gives for the norm of the linear interpolation holds.", "quantifier": "all pairs of normalised motors, all real t, both instruction sets, exact estimates", "why_tests_cant": "a continuum of inputs; the documentation has no tests", "anchors": ["docs/quickstart.md: blend_motors", "docs/case_studies/ga_skeletal_animation.md: slerp, nlerp", "public/klein/klein.hpp: exp, log"]}
{"id": "C75", "title": "the worked examples of the documentation", "statement": "Every calculation of docs/geometry-potpourri.md and the expanded motor conjugation of the case study is what the algebra gives and, where Klein has the operation, what the code computes; the formulas for intersection, join, distance, projection and angle hold in general.", "quantifier": "the documented inputs; the formulas for all inputs, both instruction sets", "why_tests_cant": "the documentation is not compiled or tested", "anchors": ["docs/geometry-potpourri.md", "docs/case_studies/ga_skeletal_animation.md: conjugation"]}
{"id": "C76", "title": "normalised motors are exactly the rigid motions, two motors for each", "statement": "A map of space to itself keeps distances and orientation if and only if it is the action of a normalised motor, and two normalised motors act alike if and only if they are equal up to sign; the rotations about the origin are the actions of unit rotors; every isometry that reverses orientation is a reflection in a plane after the action of a motor.", "quantifier": "all maps of real three-dimensional space, all normalised motors, both instruction sets", "why_tests_cant": "quantifies over all maps", "anchors": ["public/klein/motor.hpp: operator()", "public/klein/rotor.hpp: operator()", "public/klein/plane.hpp: operator()", "docs/index.md"]}
{"id": "C77", "title": "forward kinematics as documented", "statement": "With poses encoded relative to the parent joint, animate_keyframe moves every joint to the world pose of its parent times its own pose, for every skeleton laid out as described.", "quantifier": "all skeletons, all poses", "why_tests_cant": "unbounded hierarchies; the documentation has no tests", "anchors": ["docs/case_studies/ga_skeletal_animation.md: animate_keyframe", "public/klein/motor.hpp: operator()(point*, point*, size_t)"]}
{"id": "C78", "title": "inverses, quotients by scalars, norms and roots are accurate in binary32", "statement": "With every operation rounded and rcpps/rsqrtps of the specified accuracy: the inverse of a plane, branch, line, rotor, motor and point, the division of every entity by a scalar, the norms, and the square root of a rotor, branch and motor are finite and differ from the exact value of the code's formula by at most a few units in the last place of the natural scale of the result (3.8e-7 for quotients, 1.4e-6 for inverses, 7.8e-6 for the moments of inverses of lines and motors, 1e-6 for norms, 8.2e-7 and 4.7e-6 for roots).", "quantifier": "all binary32 inputs with lanes of magnitude at most 2^30, norm (weight, divisor) at least 2^-30 and moments bounded by a C between 2^-30 and 2^32, all hardware within the specification, both instruction sets", "why_tests_cant": "real-valued quantities over 2^128 inputs and over hardware that differs between vendors", "anchors": ["public/klein/plane.hpp: invert, norm", "public/klein/line.hpp: invert, norm, operator/", "public/klein/rotor.hpp: invert", "public/klein/motor.hpp: invert, operator/", "public/klein/point.hpp: invert", "public/klein/exp_log.hpp: sqrt", "public/klein/detail/x86/x86_sse.hpp: rsqrt_nr1, rcp_nr1, sqrt_nr1"]}
{"id": "C79", "title": "exponentials, logarithms and axis constructors are accurate in binary32", "statement": "With every operation rounded, rcpps/rsqrtps of the specified accuracy and a C library accurate to two units in the last place: exp of a branch and of a line, log of a rotor and of a motor, and the constructors of rotors and translators from an axis and of rotors from Euler angles are finite and differ from the exact value of the code's formula by at most a small multiple of 1e-6 times the natural scale of the result; exp of a branch is a unit rotor within 2.8e-5.", "quantifier": "all binary32 inputs with lanes of magnitude at most 2^30 and norm at least 2^-30, angles of at most 4 (8 for the constructors), moments bounded by a C between 2^-30 and 2^32, the scalar of a motor at least 1e-6 in magnitude, a rotor's scalar away from 1 and -1; all hardware and C libraries within the specification, both instruction sets", "why_tests_cant": "real-valued quantities over 2^256 inputs and over hardware and C libraries that differ", "anchors": ["public/klein/exp_log.hpp: exp, log", "public/klein/detail/x86/x86_exp_log.hpp: exp, log", "public/klein/rotor.hpp: rotor(ang_rad, x, y, z), rotor(euler_angles)", "public/klein/translator.hpp: translator(delta, x, y, z)"]}
{"id": "C80", "title": "every rigid motion is a translation or a screw motion", "statement": "A map of space keeps distances and orientation if and only if it is a translation or a screw motion; every normalised motor with a rotation part equals motor(ang, d, l) for a unit line l, the rotation and the translation may be done in either order, and the line is unique up to orientation.", "quantifier": "all maps of real three-dimensional space, all normalised motors, both instruction sets", "why_tests_cant": "quantifies over all maps and a continuum of motors", "anchors": ["public/klein/motor.hpp: lines 18-34, motor(ang_rad, d, line), operator()"]}
{"id": "C81", "title": "motors are the dual quaternions and form a group", "statement": "There is a bijection between motors and dual quaternions that takes the library's product, sum, reversal and scaling to those of the dual quaternions, and one between rotors and quaternions; the normalised motors form a group under the library's product with reversal as the inverse, which acts on the points of space, maps onto the rigid motions, and has kernel {1, -1}.", "quantifier": "all motors and rotors over any commutative ring; all normalised real motors", "why_tests_cant": "algebraic laws over all inputs", "anchors": ["public/klein/motor.hpp: lines 18-34, operator*, operator~", "README.md"]}
{"id": "C82", "title": "powers and roots through the exponential and the logarithm", "statement": "exp(n log(A)) is the n-th power of A, exp(-n log(A)) the n-th power of its inverse, and exp(log(A) / n) an n-th root of A, for motors, rotors and translators; scaling a motor does not change its motion.", "quantifier": "all normalised motors, unit rotors and translators, all n, both instruction sets, exact estimates", "why_tests_cant": "all n over a continuum of inputs", "anchors": ["public/klein/exp_log.hpp: lines 12-44, exp, log"]}
{"id": "C83", "title": "a dual number times a line, exponentiated, is the documented screw", "statement": "exp((p + q e0123) * l) for a unit line l is the screw motion about l with rotation and translation given by half the scalar and pseudoscalar parts.", "quantifier": "all real p, q, all unit lines, both instruction sets, exact estimates", "why_tests_cant": "a continuum of inputs; no test exponentiates such a product", "anchors": ["public/klein/geometric_product.hpp: operator*(dual, line)", "public/klein/exp_log.hpp: exp(line)"]}
{"id": "C84", "title": "transformations between entities as documented", "statement": "The product of two planes performs both reflections, is a translation if the planes are parallel and otherwise a rotation about their common line by twice their angle; sqrt(a * b) takes b to a for branches and lines, and the product of two lines is a screw motion about their common normal; project(plane, line) is the plane through the line that maximises the inner product; a | b of a point and a plane is the perpendicular through the point.", "quantifier": "all planes, unit branches and lines, points; both instruction sets, exact estimates", "why_tests_cant": "a continuum of inputs, and existential geometric statements", "anchors": ["public/klein/geometric_product.hpp: lines 15-120", "public/klein/projection.hpp: project(plane, line)", "public/klein/inner_product.hpp: operator|(point, plane)", "public/klein/exp_log.hpp: sqrt"]}
{"id": "C85", "title": "symbolic engine: assignment operators applied to an object and itself", "statement": "The compound assignments of monomials, polynomials and multivectors (+=, -=, *=, ^=, &=, |=) give the same value whether the right operand is a copy or the object itself.", "quantifier": "all monomials, polynomials and multivectors in canonical form", "why_tests_cant": "aliasing of iterators into a container that the loop modifies; a test sees undefined behaviour only if it happens to crash", "anchors": ["sym/poly.cpp: mon::operator*=, poly::operator+=, poly::operator*=", "sym/ga.cpp: mv::operator+=, mv::operator-=, mv::operator*=, mv::operator^=, mv::operator&=, mv::operator|="]}
{"id": "C86", "title": "symbolic engine: float coefficients are exact for integers of moderate size", "statement": "With coefficients in binary32 the parser still accepts exactly the documented grammar and every expression has a value; if the numbers of an expression are non-zero integers and their product over products and sum over sums does not exceed 2^24, the coefficients returned are the exact ones and denote the expression.", "quantifier": "all token sequences and expressions, all quiet binary32 numbers; all integer expressions within the bound", "why_tests_cant": "unbounded expressions; the roundings depend on the order of the terms", "anchors": ["sym/poly.hpp: std::map<mon, float>", "sym/poly.cpp: push, operator+=, operator*", "sym/ga.cpp: push, products", "sym/parser.cpp: parse"]}
{"id": "C87", "title": "symbolic shell: a session answers its lines one by one", "statement": "The shell splits its input at line ends and answers every line independently of the others and in order: blank lines with a line end, comments with an echo, commands with nothing, expressions of the grammar with their value; the session ends when the input does.", "quantifier": "all input texts", "why_tests_cant": "unbounded input; the tests do not run the shell", "anchors": ["sym/repl.cpp: repl::run", "sym/repl.hpp"]}
{"id": "C88", "title": "symbolic engine: printing tokens and hashing monomials", "statement": "Monomials that compare equal have equal hashes; printing a list of tokens writes one line per token and does not change how anything else is printed.", "quantifier": "all monomials, all hashes of strings and integers, all widths of size_t; all token lists", "why_tests_cant": "neither function is called by the tests", "anchors": ["sym/poly.hpp: std::hash<mon>", "sym/parser.cpp: operator<<"]}
{"id": "C89", "title": "the constants are correctly rounded", "statement": "Each constant of util.hpp is the binary32 number closest to the real number it is named after, whatever the precision of long double, and the relations between them (2 pi_4 = pi_2, 2 pi_2 = pi, 2 pi = tau, sqrt2 / 2 = sqrt2_2) hold exactly in binary32.", "quantifier": "long double of 53, 64 or 113 bits, all binary32 numbers", "why_tests_cant": "compares with real numbers", "anchors": ["public/klein/util.hpp"]}
{"id": "C90", "title": "products, meets, joins, inner products, projections and actions are accurate in binary32", "statement": "With every operation rounded, every lane of the geometric products, meets, joins, inner products and projections, and of the actions of planes, rotors, translators and motors, is finite and within a stated number of units 2^-24 of its natural scale of the same operation in exact arithmetic. The natural scale is the product of the scales of the operands with their multiplicities, times a length C for moments, offsets and coordinates; the number of units ranges from 2 for single products to 14 and 35 for motor products, 71 for rotations, 133 for a point and 283 for the moment of a line moved by a motor.", "quantifier": "all binary32 operands with lanes bounded by scales between 2^-24 and 2^24 and lengths between 2^-20 and 2^20, both instruction sets; hardware within the specification for the one action that divides", "why_tests_cant": "real-valued comparison over 2^256 inputs", "anchors": ["public/klein/geometric_product.hpp", "public/klein/meet.hpp", "public/klein/join.hpp", "public/klein/inner_product.hpp", "public/klein/projection.hpp", "public/klein/detail/x86/x86_sandwich.hpp", "public/klein/detail/x86/x86_geometric_product.hpp"]}
{"id": "C91", "title": "long products of motors in binary32", "statement": "The product of n + 1 motors, multiplied from left to right in binary32 without normalisation, is finite and within 1.9e-6 n (rotation part) and 5.7e-6 n (moment part, in units of the length C) of the exact product relative to its size. If the factors are normalised to the accuracy of normalize, the norm of the product is within 3e-6 (n + 1) of one. Moving a point by the product is within 2.1e-5 (n + 1) of the exact image relative to the sizes, and distances between points are kept to within twice that.", "quantifier": "all sequences of up to 65537 finite motors with sizes of the partial products between 2^-20 and 2^20 and a length C of at least twice the sum of the half translations; all points with coordinates within that length", "why_tests_cant": "unbounded sequences; the accumulation of roundings depends on every factor", "anchors": ["public/klein/geometric_product.hpp: operator*(motor, motor)", "public/klein/motor.hpp: operator()(point)"]}
{"id": "C92", "title": "matrices and shaders are accurate in binary32", "statement": "With every operation rounded, the matrices of motors are within 15 units 2^-24 (rotation) and 35 units (translation) of the exact ones relative to their scale, with an exact last row; multiplying a point by the matrix, moving it with the shader function and moving it with the call operator are each within 135 units of the exact image and therefore within 268 units of each other; the other shader functions have stated bounds and the shader products agree with the library bit for bit.", "quantifier": "all binary32 motors, rotors, planes and points with lanes bounded by scales between 2^-24 and 2^24 and lengths between 2^-20 and 2^20, both instruction sets; shader arithmetic rounding to nearest without contraction (C94 treats contraction)", "why_tests_cant": "real-valued comparison over 2^384 inputs; the shaders are not run by the tests", "anchors": ["public/klein/motor.hpp: as_mat3x4, as_mat4x4", "public/klein/rotor.hpp: as_mat4x4", "public/klein/detail/x86/x86_matrix.hpp", "public/klein/mat4x4.hpp", "public/klein/mat3x4.hpp", "glsl/klein.glsl"]}
{"id": "C93", "title": "quotients of entities are accurate in binary32", "statement": "With every operation rounded and estimates within the hardware specification, every lane of the quotients of motors, lines, branches, planes, rotors and translators is finite and within a stated number of units 2^-24 of its natural scale of the same quotient in exact arithmetic (61 and 644 units for the two parts of a motor over a motor); a motor over itself is within these bounds of the identity; the product and the quotient of two points are within 2e-6 and 5.2e-6 of the difference of their positions relative to the largest coordinate.", "quantifier": "all binary32 operands with norms between 2^-24 and 2^24 (weights of points between 2^-20 and 2^20) and lengths between 2^-20 and 2^20, both instruction sets, all hardware within the specification", "why_tests_cant": "real-valued comparison over 2^256 inputs and all admissible estimates", "anchors": ["public/klein/geometric_product.hpp: operator/", "public/klein/geometric_product.hpp: operator*(point, point)", "public/klein/detail/x86/x86_geometric_product.hpp: gp33", "public/klein/motor.hpp: invert", "public/klein/line.hpp: invert", "public/klein/plane.hpp: invert", "public/klein/rotor.hpp: invert", "public/klein/point.hpp: invert"]}
{"id": "C94", "title": "results stay accurate when a compiler fuses multiplications and additions", "statement": "Whichever products a compiler fuses with the sums or differences they enter, every lane of the products, meets, joins, inner products, projections and actions, of points multiplied by the matrices and of the shader functions stays within the number of units of C90 and C92 of the exact result.", "quantifier": "all binary32 operands with lanes bounded by scales between 2^-24 and 2^24 and lengths between 2^-20 and 2^20, both instruction sets, all choices of contraction at every sum and difference", "why_tests_cant": "the tests run one binary; the number of ways to contract is exponential in the number of operations", "anchors": ["public/klein/geometric_product.hpp", "public/klein/meet.hpp", "public/klein/join.hpp", "public/klein/inner_product.hpp", "public/klein/projection.hpp", "public/klein/detail/x86/x86_sandwich.hpp", "public/klein/detail/x86/x86_inner_product.hpp: dot03", "public/klein/detail/x86/x86_exterior_product.hpp: ext00", "glsl/klein.glsl"]}
{"id": "C95", "title": "screw motors and powers of motors are accurate in binary32", "statement": "The motor made from an angle, a distance and a line, the power exp(t log m) used for interpolation, and exp(log m) are, computed in binary32, within a stated small error of the exact motor; exp(log m) is m divided by the norm of its rotor part, with the pseudoscalar that makes it a motor.", "quantifier": "all binary32 lines, angles, distances, motors and exponents with half angle between 2^-29 and 3.99, motor scalar at least 1e-6 in absolute value and stated ranges of magnitude, both instruction sets, every hardware with the documented accuracy of rcpps and rsqrtps and every C library accurate to two units in the last place", "why_tests_cant": "the tests check one screw motor and one square root of a motor to 1e-6", "anchors": ["public/klein/motor.hpp: motor(float ang_rad, float d, line l)", "public/klein/exp_log.hpp: exp(line), log(motor)", "public/klein/detail/x86/x86_exp_log.hpp", "docs/quickstart.md:101-104"]}
{"id": "C96", "title": "the logarithm of a half turn is the same with both instruction sets", "statement": "For a half turn without translation log(m) is a bivector whose exponential is m again, whatever the signs of the zeros that occur and with either instruction set.", "quantifier": "all binary32 half turns with the lanes of the axis below 2^30 and a norm of at least 2^-30, both instruction sets, every hardware with the documented accuracy of rcpps and rsqrtps, every C library accurate to two units in the last place that follows Annex F for atan2 of zeros", "why_tests_cant": "the tests take no logarithm of a half turn, and run one instruction set; the sign of an intermediate zero is not visible in a comparison", "anchors": ["public/klein/detail/x86/x86_exp_log.hpp: log", "public/klein/detail/x86/x86_sse.hpp: hi_dp_bc", "public/klein/exp_log.hpp: log(motor), exp(line)"]}
{"id": "C97", "title": "interpolation of rounded rotors stays close to the classical formula", "statement": "exp(t * log(b * ~a)) * a, computed in binary32 from rotors that are themselves rounded, agrees with sin((1 - t) phi) / sin(phi) A + sin(t phi) / sin(phi) B for the exact unit rotors A and B up to a few units of 1e-5 in every lane; in particular interpolating between nearly equal or equal rotors gives a rotor.", "quantifier": "all pairs of different unit rotors with a scalar product of at least -1/8, all binary32 rotors within 2^-21 of them lane by lane for which the scalar part of b * ~a comes out below one (implied by a scalar product of at most 1 - 2^-16) and its bivector part times t is not below 2^-29, all t with |t| <= 3/2, both instruction sets, every hardware with the documented accuracy of rcpps and rsqrtps, every C library accurate to two units in the last place", "why_tests_cant": "the result depends on three transcendental functions and two products; tests compare at isolated values of t, never with the closed formula, and never take two equal rotors", "anchors": ["docs/case_studies/ga_skeletal_animation.md: slerp", "public/klein/exp_log.hpp: log(rotor), exp(branch)", "public/klein/geometric_product.hpp: rotor * rotor"]}
{"id": "C98", "title": "interpolation of rounded motors stays close to the exact one", "statement": "exp(t * log(b * ~a)) * a, computed in binary32 from motors that are themselves rounded, agrees with the same expression evaluated exactly for the exact motors A and B: up to a few units of 1e-5 in the rotor part, and up to a few thousandths of the size C of the ideal parts in the ideal part. At t = 1 it ends within that distance of B. For orientations further apart, with a scalar product of the rotor parts of at least 1/k, the bounds grow like k^2 in the rotor part and like k^4 in the ideal part.", "quantifier": "all pairs of motors with unit rotor parts, ideal parts of size at most C with 1 <= C <= 2^17, and a scalar product of the rotor parts of at least 1/2 and less than 1 (up to 120 degrees apart), or of at least 1/k for 2 <= k <= 8 (up to 165 degrees apart) if C <= 2^15, all binary32 motors within 2^-21 (times C in the ideal part) of them, all |t| <= 1 such that |t| times the size of the computed bivector part of b * ~a is at least 2^-27 (implied by a scalar product of at most 1 - 2^-16 and |t| >= 2^-18), both instruction sets, every hardware with the documented accuracy of rcpps and rsqrtps, every C library accurate to two units in the last place; normalised motors for the end of the blend", "why_tests_cant": "the logarithm amplifies the rounding of its argument, which no test separates from the error of the logarithm itself; the tests interpolate between exactly representable motors only", "anchors": ["docs/quickstart.md: blend_motors", "docs/case_studies/ga_skeletal_animation.md: slerp", "public/klein/exp_log.hpp: log(motor), exp(line)", "public/klein/geometric_product.hpp: motor * motor"]}
{"id": "C99", "title": "Euler angles of a rounded rotor and the round trip through them", "statement": "as_euler_angles, computed in binary32 from a rotor that is itself rounded, returns the angles of the exact rotor: roll and yaw up to full turns and about 1.5e-6/c + 12 eta/c, the pitch up to about 8e-7/c + 9 eta/c, where c is the cosine of the pitch and eta the rounding of the rotor. The rotor constructed in binary32 from these angles is the original one up to sign and about 2e-5 + (2e-6 + 16 eta)/c per lane. Without the condition on the code's own gimbal test this fails: a quarter turn about the z axis comes back as a quarter turn about the y axis.", "quantifier": "all unit rotors whose pitch has a cosine of at least 1/64 and for which the quantity the code tests is at most 0.49989 in absolute value, all binary32 rotors within eta <= 2^-21 of them, both instruction sets, every hardware with the documented accuracy of rsqrtps, every C library accurate to two units in the last place that follows Annex F for atan2 of zeros", "why_tests_cant": "the tests convert one rotor; the errors grow without bound as the pitch approaches a quarter turn, and which of the two ends of the range of atan2 is returned depends on the rounding", "anchors": ["public/klein/rotor.hpp: rotor(euler_angles), as_euler_angles"]}
{"id": "C100", "title": "interpolation between equal orientations", "statement": "exp(t * log(b * ~a)) * a in binary32 when a and b have the same rotor part. The bivector part of a * ~a computed as a product of rotors is exactly zero for every rotor, so the interpolation of a rotor with itself is NaN in every lane, for every rotor. Computed as a product of motors it is exactly zero if one of the three lanes of the axis is zero; then the motor interpolation moves the translation linearly, A + t (B - A), up to about 1e-5 of the size C of the ideal parts. Otherwise a rounding error remains, and if its square underflows the result is NaN in every lane, even for the interpolation of a motor with itself.", "quantifier": "all unit rotors and all binary32 rotors within 1/1000 of them, all finite t; all normalised motors with ideal parts of size at most C, 1 <= C <= 2^17, all binary32 motors within 2^-21 (times C) of them with equal rotor parts and one lane of the axis zero, all |t| <= 1; both instruction sets, every hardware with the documented behaviour of rsqrtps and rcpps and every C library that follows Annex F", "why_tests_cant": "equality of the result with NaN for all inputs, and exact cancellation for all inputs, depend on the order of the additions; the tests never interpolate between equal orientations", "anchors": ["docs/quickstart.md: blend_motors", "docs/case_studies/ga_skeletal_animation.md: slerp", "public/klein/detail/x86/x86_geometric_product.hpp: gp11, gpMM", "public/klein/detail/x86/x86_exp_log.hpp: log, exp"]}
{"id": "C101", "title": "normalised linear interpolation in binary32", "statement": "nlerp of the documentation, ((1 - t) m1 + t m2).normalize(), computed in binary32 from motors within \u03b4 (times C for the ideal part) of unit motors A and B, agrees with the exact nlerp of A and B: with \u03bd^2 <= (1 + A.B)/2 every lane of the rotor part is within 6.9e-7 + (7.6e-7 + 4\u03b4)/\u03bd and every lane of the ideal part within C ((4.3e-6 + 2.04\u03b4)/\u03bd + (2e-6 + 10.04\u03b4)/\u03bd^2). For motors at most a half turn apart (A.B >= 0) this is 1.8e-6 + 5.8\u03b4 and C (1.1e-5 + 24\u03b4), and at t = 0 and t = 1 the result is that close to A and to B. Half way between a motor and its negative, which is the same rigid motion, nlerp is NaN in every lane.", "quantifier": "all unit motors A, B with ideal parts of size at most C, 1 <= C <= 2^17, and rotor parts with \u03bd >= 200 (1.9e-7 + \u03b4), all binary32 motors within \u03b4 <= 2^-14 (times C) of them, all binary32 t in [0, 1]; both instruction sets and every hardware with the documented behaviour of rsqrtps and rcpps; for the negative part, every finite binary32 motor", "why_tests_cant": "the error of the blend is divided by the length of the chord's midpoint and the error of the ideal part by its square; the statement is about all pairs of motors, all t and all hardware approximations, and the repository has no test of nlerp", "anchors": ["docs/case_studies/ga_skeletal_animation.md: nlerp", "public/klein/motor.hpp: normalize, operator+, operator*", "public/klein/detail/x86/x86_sse.hpp: rsqrt_nr1, rcp_nr1, dp_bc"]}
{"id": "C102", "title": "the demonstration script, the test script and the documented session of the symbolic shell", "statement": "For every expression in scripts/demo.klein and scripts/test.klein the symbolic engine accepts the line and returns what the library computes for the operation named in the comment above it (or the product of the specification, where the library has no such operation); in demo.klein for all values of the variables. The session shown in docs/shell.md prints the product of the point and the rotor.", "quantifier": "all values of the variables in every commutative ring, for the 22 expressions of demo.klein (three of them are lines of validation.klein, C73); the 48 expressions of test.klein are in numbers; both instruction sets", "why_tests_cant": "the scripts are meant to be compared with the tests by hand; that the two programs agree for all values of the variables is not a test", "anchors": ["scripts/demo.klein", "scripts/test.klein", "docs/shell.md:13-39", "sym/repl.cpp", "sym/parser.cpp: parse", "sym/ga.cpp", "sym/poly.cpp"]}
{"id": "C103", "title": "fixed points of the actions and factorisation into reflections", "statement": "The points fixed by the reflection in a unit plane are exactly the points of the plane; those fixed by a normalised motor are exactly the points of the line that is its bivector part, and there are none if it has a pseudoscalar part; the half turn about a unit line fixes exactly that line; a reflection and the half turn about a normal at A make the inversion in A, whose only fixed point is A. A unit rotor is the product of two unit planes through the origin, a translator of two parallel unit planes, a normalised motor is the product of two unit planes exactly when its pseudoscalar part is zero and always of four; every rigid motion is the composition of four reflections computed by the library.", "quantifier": "all planes, lines, points and normalised motors over every field of characteristic zero (fixed points); all real rotors, translators, motors and rigid motions (factorisation)", "why_tests_cant": "these are characterisations: a test can show that one point is fixed, not that no other point is, nor that planes exist for every rotor", "anchors": ["docs/overview.md:19-31", "geometric_product.hpp: operator*(plane, plane)", "plane.hpp: operator()(point)", "motor.hpp: operator()(point)"]}
{"id": "C104", "title": "the scripts of the symbolic shell with float coefficients", "statement": "On every line of validation.klein, demo.klein and test.klein that is compared with the library the engine with the binary32 coefficients of the code returns the multivector it returns with integer coefficients, every coefficient converted exactly; in general this holds for every line that passes an executable check of the bound on its coefficients, and the check cannot be dropped.", "quantifier": "all lines of text that pass the check; the 173 distinct lines of the three scripts", "why_tests_cant": "the scripts are compared by eye, and rounding of a coefficient would look like a wrong formula", "anchors": ["scripts/validation.klein", "scripts/demo.klein", "scripts/test.klein", "sym/poly.cpp: push", "sym/parser.cpp: tokenize_number", "sym/parser.cpp: parse"]}
{"id": "C105", "title": "the compiled code printed in docs/perf.md", "statement": "Run instruction by instruction, the listing of the product of rotors and the listing of the application of a motor to a point compute the modelled kernels: the same values in every commutative ring, and in binary32 the same bits except for the payload of NaNs. The listings of RTM and GLM for quaternions compute the same product, with opposite orders of the arguments. The GLM listing set against the application of a motor computes another function: the inverse rotation of the first three coordinates, no translation, and the scalar product with the translation in the fourth; it agrees with the motor only if the motor fixes the origin and turns by nothing or half a turn.", "quantifier": "all contents of the registers and memory of the arguments; all commutative rings, fields or binary32 patterns as lanes", "why_tests_cant": "the page invites comparison of listings nobody ran, and some of their constants are not shown", "anchors": ["docs/perf.md:48-71", "docs/perf.md:152-174", "docs/perf.md:254-310", "docs/perf.md:423-481", "docs/perf.md:594-734", "public/klein/detail/x86/x86_geometric_product.hpp: gp11", "public/klein/detail/x86/x86_sandwich.hpp: sw312"]}
{"id": "C106", "title": "the shader library compiled as C++ for its tests", "statement": "Shader code compiled with the vec4 class of the test shim has the meaning it has in GLSL, except for two kinds of statement: v *= v.k for a component before the last, and the assignment of a component to the same component of another variable. klein.glsl contains neither. So its eight functions, as the tests compile them, are the functions of the library in exact arithmetic; in binary32 the products, the rotor on a plane, the motor on a point and all but one coefficient of the motor on a plane have the bits of the SSE kernels, except for the payload of NaNs.", "quantifier": "all programs of vec4 statements without the two, all initial memories, aliased or not; all commutative rings or binary32 patterns", "why_tests_cant": "the tests run the shader only through this class, on one input per function, and cannot tell whether the class behaves like GLSL", "anchors": ["test/glsl_shim.hpp: vec4", "test/glsl_shim.hpp: dot", "test/test_glsl.cpp", "glsl/klein.glsl: kln_mul", "glsl/klein.glsl: kln_apply"]}
{"id": "C107", "title": "moving a point step by step in binary32", "statement": "A point moved by n motors one after the other in binary32, without normalisation, stays finite and is within 2.1e-5 n L of its exact position, where L is twice the sum of its distance from the origin and the lengths of the translations, and the motors may have any size. Two points moved together keep their distance to within twice that. Moving the point step by step and moving it by the product of the motors agree to within the sum of the two bounds.", "quantifier": "all sequences of up to 16384 motors and all points with finite lanes and sizes in a stated range", "why_tests_cant": "a test can follow a few orbits; the error of the position after n arbitrary steps is a statement about all of them", "anchors": ["public/klein/motor.hpp: operator()(point)", "public/klein/geometric_product.hpp: operator*(motor, motor)", "public/klein/detail/x86/x86_sandwich.hpp: sw312"]}
{"id": "C108", "title": "orientations and motions normalised at every step in binary32", "statement": "In the loop x = (d * x).normalized(), computed in binary32 with a new factor d at every step, a rotor has finite lanes and a squared norm within 1.4e-6 of one after any number of steps, whatever the sizes of the factors; its orientation is within 4.5e-6 n of the product of the exactly normalised factors, and it turns a vector to within 9e-6 n of its length of the exact place. A motor stays normalised likewise, its rotation within 4.8e-6 n and its moment within 2.7e-5 n of a length that is twice the sum of the half translations.", "quantifier": "all sequences of rotors, of any length, with finite lanes and norms between 2^-20 and 2^20; all sequences of up to 8192 motors with sizes in a stated range; every estimate of the reciprocal square root within the documented accuracy", "why_tests_cant": "a test can run the loop for some number of steps with some factors; that the error of the norm does not accumulate is a statement about every number of steps", "anchors": ["public/klein/rotor.hpp: rotor::normalize", "public/klein/rotor.hpp: rotor operator*(rotor, rotor)", "public/klein/motor.hpp: motor::normalize", "public/klein/motor.hpp: motor operator*(motor, motor)"]}
{"id": "C109", "title": "points placed by a motion normalised at every step in binary32", "statement": "When a motor is updated by x = (d * x).normalized() and its points are placed by x(p), all in binary32, the place of a point after n steps is within (9.6e-6 R + 5.9e-5 C) n + 4.2e-5 R + 8.4e-5 C of the place given by the exact product of the normalised factors, where R bounds the distance of the point from the origin and C is twice the sum of the half translations. Two points placed by the same motor keep their distance to within twice that.", "quantifier": "all sequences of up to 8192 motors and all points with finite lanes and sizes in a stated range; every estimate of the reciprocal square root within the documented accuracy", "why_tests_cant": "a test can follow a few bodies for a few steps; the bound holds for every motion", "anchors": ["public/klein/motor.hpp: motor::normalize", "public/klein/motor.hpp: motor operator*(motor, motor)", "public/klein/motor.hpp: motor::operator()(point)"]}
{"id": "C110", "title": "integrating a velocity in binary32", "statement": "When an orientation is advanced by x = (exp(w) * x).normalized(), with a new branch w at every step, all in binary32, it stays normalised to within 1.4e-6 for any number of steps, and after n steps it is within 3.2e-5 n of the exact product of the exponentials. When w is constant that is exp(n w) * x. When a motor is advanced in the same way by the exponentials of lines, it stays normalised, the rotation is within 2.6e-5 n of the exact one, the moment within (4.9e-5 n + 4.8e-5) C, and a point at a distance of at most R is placed within (5.3e-5 R + 1.3e-4 C) n + 4.2e-5 R + 1.9e-4 C of its exact place, where C is twice the sum of the moments.", "quantifier": "all sequences of branches and, up to 8192 steps, of lines, with a turn between 2^-30 and 4 per step; all first states and points with finite lanes and sizes in a stated range; every reciprocal square root estimate and library function within the documented accuracy", "why_tests_cant": "a test can follow a few motions for a few steps; the bound holds for every sequence of velocities", "anchors": ["public/klein/exp_log.hpp: exp(branch), exp(line)", "public/klein/rotor.hpp: rotor::normalize", "public/klein/motor.hpp: motor::normalize", "public/klein/motor.hpp: motor::operator()(point)"]}
{"id": "C111", "title": "forward kinematics in binary32", "statement": "When the joints of a skeleton are moved as in animate_keyframe of the case study, every operation rounded to binary32, the position of every joint is finite and within 2.1e-5 d L of the exact one, where d is the number of motors on the way from the root to the joint and L is twice the sum of the distance of the world location from the origin and the lengths of the translations on the way. This holds in the order of the document and in the opposite order, which gives the documented world poses (C77). In the latter the length of a bone is the one its own pose gives it, whatever the poses of its ancestors, to within 4.2e-5 d L.", "quantifier": "all well-formed skeletons of any shape with up to 16384 joints on any way from the root, all poses with finite lanes normalised to within the accuracy of normalize, all world locations with finite lanes and sizes in a stated range", "why_tests_cant": "the error of a joint depends on all of its ancestors; the case study has no tests, and a test could only try a few skeletons and poses", "anchors": ["docs/case_studies/ga_skeletal_animation.md: animate_keyframe", "public/klein/motor.hpp: motor::operator()(point*, point*, size_t)", "public/klein/detail/sandwich.hpp: sw312"]}
{"id": "C112", "title": "planes and lines moved step by step in binary32", "statement": "When a plane or a line is moved by n motors one after the other, every operation rounded to binary32, all lanes stay finite. The normal of the plane and the direction of the line are within 8.8e-6 n of the exact ones, relative to their length; the offset is within 2e-5 n L and the moment within 4e-5 n L, relative to the length of the normal or direction. Here L is at least twice the distance of the plane or line from the origin plus twice the total length of the translations. The signed distance of a point from a plane, both moved by the same motors, stays what it was to within 6e-5 n L.", "quantifier": "all sequences of up to 4096 motors with finite lanes whose products have sizes in a stated range, in particular all motors normalised to within the accuracy of normalize; all planes, lines and points with finite lanes and sizes in a stated range; both instruction sets", "why_tests_cant": "the tests move a few planes and lines once; the error of a long motion depends on all of the steps", "anchors": ["public/klein/motor.hpp: motor::operator()(plane const&), motor::operator()(line const&)", "public/klein/detail/sandwich.hpp: sw012, swMM"]}
{"id": "C113", "title": "normalisation and inverses with fused multiply-adds", "statement": "When the compiler fuses multiplications with the additions and subtractions they enter, in any combination and in the Newton steps as well, normalisation and inversion keep the accuracy they have without fusing. A normalised rotor, branch, direction, or rotor part of a motor or direction part of a line is the exact one up to a relative error of 6.8e-7, the normal of a plane up to 7.4e-7, a point up to 3.8e-7. The moments of normalised lines and motors are within 3.7e-6 C / N of the exact ones, where N is the norm divided by and C bounds the norm of the moment. The inverses of lines and motors are within 7e-7 / N and 7.8e-6 C / N^2 of the exact ones, those of branches and plane normals within 1.4e-6 / N, rotors and plane distances within a relative 1.4e-6 and points within 8e-7 of the largest lane; quotients by a scalar are within 3.8e-7 of it. Squared norms are within a relative 3e-7, norms within 2.3e-7 and those of planes within 1e-6. The lanes of square roots of rotors and branches are within 8.2e-7 and the moments of those of motors within 4.7e-6 C / N, provided that the scalar lane is not itself a product which the addition of one could take in. Inverses and lane 0 of normalised planes are compared with what the code computes exactly, which C25, C27 and C28 describe.", "quantifier": "all choices, expression by expression, of what to fuse; all operands whose lanes have magnitude at most 2^30 and whose norm is at least 2^-30, moments bounded by any C between 2^-30 and 2^32; all estimates of the documented accuracy; both instruction sets", "why_tests_cant": "whether and what a compiler fuses depends on the target and the flags; the tests run the result of one compilation", "anchors": ["public/klein/detail/x86/x86_sse.hpp: rcp_nr1, rsqrt_nr1, hi_dp_bc, dp_bc", "public/klein/plane.hpp: plane::normalize", "public/klein/point.hpp: point::normalize", "public/klein/direction.hpp: direction::normalize", "public/klein/line.hpp: line::normalize, line::invert, branch::normalize", "public/klein/rotor.hpp: rotor::normalize", "public/klein/motor.hpp: motor::normalize, motor::invert", "public/klein/plane.hpp: plane::invert, plane::norm", "public/klein/point.hpp: point::invert", "public/klein/rotor.hpp: rotor::invert", "public/klein/line.hpp: branch::invert, norm, squared_norm", "public/klein/exp_log.hpp: sqrt"]}
{"id": "C114", "title": "chains of motors, moving points and kinematics with fused multiply-adds", "statement": "When the compiler fuses multiplications with the additions and subtractions they enter, long products of motors, points moved by one motor after the other and the joints of the skeletal case study stay within the bounds they have without fusing: the product of n + 1 motors is within 1.9e-6 n of the exact one relative to its size, a point moved by that product within 2.1e-5 (n + 1), the position of a point after n motions within 2.1e-5 n L, the distance of two moved points within 4.2e-5 n L, a joint within 2.1e-5 L per joint on the way, and a bone has its length to within 4.2e-5 L per joint on the way.", "quantifier": "all choices of what to fuse, expression by expression and independently in every step; all finite motors and points of moderate size, all lengths L covering the motion, all n up to 65536 (products) or 16384 (motions); all well-formed skeletons", "why_tests_cant": "errors accumulate over many operations, and what is fused depends on the compiler; the tests run single operations of one compilation", "anchors": ["public/klein/geometric_product.hpp: operator*(motor, motor)", "public/klein/motor.hpp: motor::operator()(point)", "docs/case_studies/ga_skeletal_animation.md: animate_keyframe"]}
{"id": "C115", "title": "moving planes and lines with fused multiply-adds", "statement": "When the compiler fuses multiplications with the additions and subtractions they enter, planes and lines moved by one motor after the other stay within the bounds they have without fusing. After n motions the normal of a plane and the direction of a line are within 8.8e-6 n of the exact ones relative to their length, the offset within 2e-5 n L and the moment within 4e-5 n L, and the signed distance of a point from a plane moved along with it is what it was to within 6e-5 n L.", "quantifier": "all choices of what to fuse, expression by expression and independently in every step; both instruction sets; all finite motors, planes and lines of moderate size, all lengths L covering the motion, all n up to 4096", "why_tests_cant": "errors accumulate over many operations, and what is fused depends on the compiler; the tests run single operations of one compilation", "anchors": ["public/klein/motor.hpp: motor::operator()(plane), motor::operator()(line)", "public/klein/detail/x86/x86_sandwich.hpp: sw012, swMM"]}
{"id": "C116", "title": "motions normalised at every step with fused multiply-adds", "statement": "When the compiler fuses multiplications with the additions and subtractions they enter, the loop x = (d * x).normalized() stays within the bounds it has without fusing. A rotor keeps norm one to 1.4e-6 for any number of steps and its orientation is within 4.5e-6 n of the exact one after n steps. The motion of a motor is within 4.8e-6 n of the exact one in orientation and 2.7e-5 n C in position for a length C covering the motion, and a point at a distance of at most R placed by it is within (9.6e-6 R + 5.9e-5 C) n + 4.2e-5 R + 8.4e-5 C of its exact place.", "quantifier": "all choices of what to fuse, expression by expression and independently in every step; both instruction sets; all reciprocal and square root estimates within Intel's bound; all finite factors of moderate size, all numbers of steps for rotors and up to 8192 for motors", "why_tests_cant": "errors accumulate over thousands of steps, and what is fused depends on the compiler; the tests normalise once, in one compilation", "anchors": ["public/klein/rotor.hpp: rotor::normalize, operator*(rotor, rotor)", "public/klein/motor.hpp: motor::normalize, operator*(motor, motor), motor::operator()(point)"]}
{"id": "C117", "title": "exponentials and logarithms with fused multiply-adds", "statement": "When the compiler fuses multiplications with the additions and subtractions they enter, exponentials and logarithms keep the bounds they have without fusing. Each lane of the exponential of a branch is within 6.7e-6 of the exact one. The exponential of a line is within 5.3e-6 in the rotor part and 2e-5 C in the other part for a moment of at most C. The logarithm of a rotor with lanes of at most B and an angle t with t / sin t at most K is within (1e-6 + 2.5e-7 K) B t / sin t. The logarithm of a motor with scalar p, bivector part of norm s, angle t and moment at most C is within 2.1e-6 t in the direction and 7e-6 t C / s + 3.5e-6 C / |p| in the moment.", "quantifier": "all choices of what to fuse, expression by expression; both instruction sets; all reciprocal and square root estimates within Intel's bound; all mathematical libraries accurate to two units in the last place; all finite branches and lines of angle at most four, rotors and motors in the domain of C79", "why_tests_cant": "the accuracy of a chain of estimates, Newton steps and library calls depends on the inputs and on what the compiler fuses; the tests compare a few values in one compilation", "anchors": ["public/klein/detail/x86/x86_exp_log.hpp: exp, log", "public/klein/exp_log.hpp: exp(branch), log(rotor)"]}
{"id": "C118", "title": "integrating a velocity with fused multiply-adds", "statement": "When the compiler fuses multiplications with the additions and subtractions they enter, the loop x = (exp(w) * x).normalized() stays within the bounds it has without fusing. A rotor keeps norm one to 1.4e-6 for any number of steps and is within 3.2e-5 n of the exact orientation, which for a constant velocity is exp(n w) * x. A point at a distance of at most R placed by a motor is within (5.3e-5 R + 1.3e-4 C) n + 4.2e-5 R + 1.9e-4 C of where exp(n w) * x puts it, for a length C covering the motion.", "quantifier": "all choices of what to fuse, expression by expression; both instruction sets; all reciprocal and square root estimates within Intel's bound; all mathematical libraries accurate to two units in the last place; all turns and screw motions of at most four radians per step, all numbers of steps for rotors and up to 8192 for motors", "why_tests_cant": "errors accumulate over thousands of steps, and what is fused depends on the compiler; the tests take single exponentials in one compilation", "anchors": ["public/klein/exp_log.hpp: exp(branch), exp(line)", "public/klein/rotor.hpp: rotor::normalize", "public/klein/motor.hpp: motor::normalize"]}
{"id": "C119", "title": "rotors and translators from axes and Euler angles with fused multiply-adds", "statement": "When the compiler fuses multiplications with the additions and subtractions they enter, the constructors keep the bounds they have without fusing. Each lane of the rotor made from an angle of at most eight and an axis is within 2e-6 of the exact one, each lane of the translator made from a distance of at most 2 d within 1.5e-6 d, and each lane of the rotor made from Euler angles of at most eight within 2e-5.", "quantifier": "all choices of what to fuse, expression by expression; all mathematical libraries accurate to two units in the last place; all finite angles and distances in that range, all axes with lanes up to 2^30 and norm at least 2^-30; both instruction sets and all estimates within Intel's bound for Euler angles", "why_tests_cant": "the squared norm of the axis and the sums of products of sines and cosines are rounded differently by every compiler; the tests compare a few values in one compilation", "anchors": ["public/klein/rotor.hpp: rotor(float, float, float, float), rotor(euler_angles)", "public/klein/translator.hpp: translator(float, float, float, float)"]}
{"id": "C120", "title": "screw motions and powers of motors with fused multiply-adds", "statement": "When the compiler fuses multiplications with the additions and subtractions they enter, motor(ang, d, line), exp(t * log(m)) and exp(log(m)) keep the bounds they have without fusing. The rotor part of the screw motion is within 6.3e-6 and the other part within 2.7e-5 of its scale. The rotor part of the power is within 5.3e-6 + 4.1e-6 of the angle and the other part within (3.3e-5 + 2.9e-5 of the angle) times its scale. exp(log(m)) is the normalised motor to similar bounds.", "quantifier": "all choices of what to fuse, expression by expression; all mathematical libraries accurate to two units in the last place; both instruction sets; all estimates within Intel's bound; all lines, angles, distances, motors and exponents in the domains of C95", "why_tests_cant": "errors pass from the line to its exponential and depend on what the compiler fuses; the tests compare a few values in one compilation", "anchors": ["public/klein/motor.hpp: motor(float, float, line)", "public/klein/exp_log.hpp: exp(line), log(motor)", "public/klein/detail/x86/x86_geometric_product.hpp: gpDL"]}
