STATUS["C01"] = "proved"
STATUS["C02"] = "proved"
STATUS["C03"] = "proved"
STATUS["C05"] = "partial"
NOTE["C05"] = ("The code violates the property: the e23 and e12 coefficients of line*line are exchanged "
  "(C05_line_mul_line_fails). Proved instead: exactly which coefficients are right, and the exact condition under which the product is right.")
STATUS["C06"] = "proved"
STATUS["C07"] = "proved"
STATUS["C08"] = "proved"
STATUS["C09"] = "proved"
STATUS["C10"] = "proved"
STATUS["C11"] = "proved"
STATUS["C13"] = "proved"
STATUS["C14"] = "proved"
STATUS["C15"] = "proved"
STATUS["C12"] = "proved"
STATUS["C16"] = "proved"
STATUS["C17"] = "proved"
STATUS["C49"] = "partial"
NOTE["C49"] = "Preservation proved operation by operation; the closure over arbitrary sequences of operations is still to be stated."
STATUS["C23"] = "proved"
STATUS["C24"] = "proved"
STATUS["C25"] = "partial"
NOTE["C25"] = ("The code violates the property for planes: normalize does not scale d by the inverse norm, and "
  "the two builds differ (C25_plane_fails_sse3, C25_plane_fails_sse41). Proved: points, rotors, motors, lines; "
  "planes exactly when d = 0 or already normalised (C25_plane_iff).")
STATUS["C26"] = "partial"
NOTE["C26"] = ("Proved for planes, branches, lines (x * x.inverse()), translators, motors, and division by them; "
  "violated by line / line, which inherits the exchanged coefficients of C05 (C26_div_line_fails).")
STATUS["C27"] = "partial"
NOTE["C27"] = ("The code violates the property: rotor::inverse omits the scalar from the norm (C27_rotor_fails); it holds "
  "exactly when the scalar is zero (C27_rotor_iff).")
STATUS["C28"] = "partial"
NOTE["C28"] = "The code violates the property: P * P.inverse() is -1 for every point (C28_point_fails)."
for _c in ("C04", "C18", "C19", "C20", "C21", "C22", "C29"):
    STATUS[_c] = "proved"
for _c in ("C30", "C31", "C32", "C34", "C35", "C38"):
    STATUS[_c] = "proved"
STATUS["C33"] = "partial"
NOTE["C33"] = ("The code violates the property: rotor{ang, axis} turns in the direction opposite to motor{ang, 0, line} "
  "(C33_fails, C33_fails_iff). Proved instead: the two are each other's inverse turn.")
STATUS["C36"] = "partial"
NOTE["C36"] = ("The code violates the property: log of a half turn without displacement is 0, so its exponential is the identity "
  "(C36_half_turn_fails), and log of a translation with scalar -1 is the opposite translation (C36_translation_fails). "
  "Proved: every other normalised motor, up to sign, and a theorem that the cases are exhaustive (C36_cases).")
STATUS["C37"] = "partial"
NOTE["C37"] = ("The code violates the property: the gimbal-lock test compares the wrong quantity (C37_fails_gimbal, C37_fails_yaw). "
  "Proved: the round trip on the remaining domain.")
STATUS["C39"] = "partial"
NOTE["C39"] = ("The code violates the property: as_mat4x4/as_mat3x4 of a rotor read an uninitialised fourth column "
  "(C39_fails, C39_fails_witness). Proved: the first three columns are the rotation.")
STATUS["C40"] = "proved"
STATUS["C43"] = "proved"
STATUS["C41"] = "partial"
NOTE["C41"] = ("The code violates the property: `in` is a __restrict pointer, so in == out is always undefined behaviour "
  "(C41_*_fails), and executing the statements in program order gives wrong results (C41_program_order_*). Proved "
  "instead: what program order computes, that line directions stay right, and that the result is right if every element is loaded once.")
STATUS["C42"] = "partial"
NOTE["C42"] = ("The code violates the property: plane::normalize differs between the builds (C42_plane_normalize_fails, exact "
  "condition in C42_plane_normalize_iff). Every other function is proved equal in exact arithmetic, under well-formedness where needed; in binary32 the logarithm of a half turn differs (C96_isa_fails).")
for _c in ("C44", "C45", "C46", "C48", "C52"):
    STATUS[_c] = "proved"
STATUS["C47"] = "partial"
NOTE["C47"] = ("The code violates the property: motor::operator=(translator) zeroes p1 instead of setting the scalar to 1 "
  "(C47_assign_translator_fails). Proved: assignment from a rotor and both converting constructors.")
STATUS["C49"] = "proved"
NOTE["C49"] = ("Exact arithmetic. log(motor) is covered for normalised motors, its documented domain; otherwise it puts "
  "e0123 in the unused lane (C49_log_unnormalised_fails). Raw register constructors and load are outside, as the headers say.")
STATUS["C50"] = "proved"
NOTE["C50"] = ("Rotor, translator and motor products agree without using any law of arithmetic; the actions in any commutative ring "
  "(GLSL leaves rounding unspecified).")
STATUS["C51"] = "partial"
NOTE["C51"] = ("Every entry point returns the bits of the C++ operation it forwards to, but three comments in klein.h describe another value: "
  "kln_compose_translator_rotor (C51_compose_translator_rotor_fails), kln_line_init (C51_line_init_fails), kln_point_init "
  "(C51_point_init_fails); so do the lane orders in the struct comments (C51_documented_lanes_fail).")
STATUS["C54"] = "proved"
NOTE["C54"] = ("For binary32 with round to nearest even (F32.rounded) and for every rounding function on the reals with |rnd x - x| <= u |x| "
  "(Rnd.rounded). Stated for finite results; underflow is included. C54_overflow shows that finite inputs do not suffice.")
STATUS["C55"] = "partial"
NOTE["C55"] = ("The code violates the property: uint8_t truncation of 1 << index makes mul wrong beyond eight dimensions "
  "(C55_mul_fails). Proved against Mathlib's CliffordAlgebra for every signature with p + q + r <= 8 (C55_mul_partial).")
STATUS["C56"] = "partial"
NOTE["C56"] = ("ext is proved against the Grassmann algebra for up to 30 dimensions; at 31, which the constructor accepts, it executes "
  "undefined behaviour (C56_ext_fails) and cannot encode the pseudoscalar (C56_ext_encoding_fails). dot is proved up to eight dimensions "
  "(it inherits the defect of mul). rev is proved for every algebra, dual and reg for Cl(3,0,1), the only algebra they accept.")
STATUS["C57"] = "partial"
NOTE["C57"] = ("The code violates the property when the sum of the exponents leaves int (C57_lt_fails). Proved a strict total order, agreeing "
  "with ==, on all monomials whose comparison is defined; C57_defined bounds the exponents for which it is.")
STATUS["C58"] = "partial"
NOTE["C58"] = ("Proved in the Laurent polynomial ring over any commutative coefficient ring (coefficients are floats in the code, rounding "
  "not modelled here) whenever the exponents stay in int, which C58_defined guarantees; C58_mul_fails is the overflow. push does store a "
  "zero coefficient when given one (C58_push_zero_fails).")
STATUS["C59"] = "partial"
NOTE["C59"] = ("Proved with coefficients in the Laurent polynomial ring: products up to eight dimensions (C55_mul_fails beyond), exterior "
  "products up to 30, regressive products in Cl(3,0,1), for which alone the dual table is written. C59_*_defined give definedness; "
  "C59_null_fails is the product of a multivector without an algebra.")
STATUS["C60"] = "partial"
NOTE["C60"] = ("The code violates the property: a last character that is a letter or unknown, or any unknown character, makes the tokenizer loop for ever "
  "(C60_fails; exact condition in C60_diverges_iff). Proved: what is accepted (C60_lexes, C60_complete_partial), that token lists end in one eof, and "
  "termination for the known characters with no letter at the end.")
STATUS["C61"] = "partial"
NOTE["C61"] = ("The code violates the property: 32 or more digits write outside the buffer before the check can throw (C61_fails, C61_never_throws). "
  "C61_exact gives the exact condition.")
STATUS["C62"] = "proved"
NOTE["C62"] = ("Safety and termination on every token list ending in eof, soundness and completeness with respect to the grammar with its precedence and "
  "association, and the meaning of the trees in Cl(3,0,1) as long as the exponents stay in int. Recursion depth (stack) is not modelled.")
STATUS["C63"] = "partial"
NOTE["C63"] = ("The code violates the property: the digits 8 and 9 are lost (C63_fails) and indices outside the algebra are accepted (C63_range_fails). "
  "Proved for indices of algebras of at most 8 dimensions.")
STATUS["C64"] = "partial"
NOTE["C64"] = ("The code violates the property: everything after an unexpected parenthesis is ignored (C64_fails). C64_exact says exactly what is read; "
  "C64_partial covers lines without parentheses.")
STATUS["C65"] = "partial"
NOTE["C65"] = ("The code violates the property: a # or . anywhere decides (C65_fails, exact behaviour in C65_exact). C65_partial covers lines without "
  "# or . after their first character.")
STATUS["C66"] = "partial"
NOTE["C66"] = ("The code violates the property: scalars +-1 are printed as nothing or as a bare sign, and variables are printed in a form that is rejected or read "
  "as another expression (C66_fails). C66_partial covers numeric multivectors whose scalar is not +-1. Printing of floats is a parameter.")
STATUS["C68"] = "proved"
STATUS["C67"] = "proved"
NOTE["C67"] = ("Exact arithmetic; plane::norm within 2.1e-7 relative, from the specified accuracy of rsqrtps. The norm of a plane with zero normal is 0 * rsqrt(0), "
  "NaN on hardware, and is excluded.")
STATUS["C53"] = "partial"
NOTE["C53"] = ("In exact arithmetic with a separate non-finite value (Fp) every listed operation is finite off the degenerate set and agrees there with the "
  "real-number model, and has a non-finite lane on it. In binary32 the property is false: C53_underflow_fails, C53_overflow_fails, C53_subnormal_fails. "
  "The exponential of a line also needs lane 0 of p1 to be zero (C53_line_exp_ill_formed). Finiteness in binary32 within a safe range is C69, C70, C78 and C79.")
STATUS["C69"] = "proved"
NOTE["C69"] = "C69_overflows shows that the range cannot be dropped. Operations through rcpps/rsqrtps are not included (C70)."
STATUS["C70"] = "proved"
NOTE["C70"] = ("The moment lanes of lines and motors are within 3.7e-6 of the exact normalisation relative to the bound of the moment over the norm; lane 0 of planes is what the code computes, not the quotient (C25). C70_contract_inhabited: the assumption on the estimates can be met, for instance by correctly rounded estimates (C70_hw32_contract); with them the documented 'w is exactly 1 when normalized' is false (C70_point_w_fails).")
STATUS["C71"] = "proved"
NOTE["C71"] = ("The exact comparison e01 == 0 of the motor/motor division test depends on the estimator "
  "(2^-24 with correctly rounded estimates) and is replaced by doctest::Approx.")
STATUS["C72"] = "proved"
NOTE["C72"] = ("Coefficients are integers instead of float; those that occur are exactly representable (C86).")
STATUS["C73"] = "partial"
NOTE["C73"] = ("Line 23 (line * line) differs from the library, the defect of C05 (C73_line23_fails). Line 289 (motor(origin)) agrees for normalised motors only "
  "(C73_line289_fails). Lines 311 and 313 are minus the library's projections and line 301 is the projection only if the line satisfies b.c = 0. Coefficients are integers; C104 has the same results with float.")
STATUS["C74"] = "partial"
NOTE["C74"] = ("Violated: between motors a half turn apart slerp does not move at all (C74_slerp_half_turn_fails); if b ~a is a translation with scalar -1 it ends at the "
  "opposite displacement (C74_slerp_translation_fails); if the scalar of b ~a is negative it goes the long way round (C74_slerp_angle); the documented norm of the linear interpolation and the "
  "documented criterion are wrong (C74_lerp_norm_doc_fails, C74_lerp_iff_doc_fails). Proved: everything else, with the right formula and criterion; nlerp is undefined only half-way between opposite rotor parts.")
STATUS["C75"] = "partial"
NOTE["C75"] = ("Violated: the workbook reads the plane 3 e0 + e1 + e3 as x + z - 3 = 0 (C75_reading_fails), and two of its results do not follow from its inputs (C75_meet_line_fails, C75_project_formula_fails). "
  "Proved: the other calculations, and the formulas in general.")
STATUS["C76"] = "proved"
STATUS["C77"] = "partial"
NOTE["C77"] = ("Violated: the loop multiplies the poses in the opposite order (C77_order, C77_order_fails), its calls are undefined behaviour (C77_in_place_fails), and a skeleton of 256 joints does not fit its uint8_t "
  "(C77_uint8_fails). Proved: with the joints visited from last to first, and calls that may work in place, the documented pose (C77_reverse_partial).")
STATUS["C78"] = "proved"
NOTE["C78"] = ("The comparison is with the code's formula in exact arithmetic; that the formula is the inverse is C26 to C28. "
  "The inverse of a rotor as coded omits the scalar (C27) and that of a point has the wrong sign (C28).")
STATUS["C79"] = "proved"
NOTE["C79"] = ("The comparison is with the code's formula in exact arithmetic; what the formula computes is C33 to C37. The assumptions on the C library "
  "(Libm.Contract32) are satisfiable (C79_contract_inhabited). For a scalar below 1e-6 the pseudoscalar has to be at least 2^-24 in absolute value; the logarithm of a half turn is C96. motor(ang, d, line) is C95.")
STATUS["C80"] = "proved"
STATUS["C81"] = "proved"
STATUS["C82"] = "partial"
NOTE["C82"] = ("Violated at half turns without translation, where log is 0 and every power and root the identity (C82_half_turn_fails). Proved: for all other motors with a rotation part and a scalar of at least 1e-6 or a "
  "negative e0123, for translations with scalar 1 (Motor.LogGood), for all unit rotors but 1 and -1, and for all translators.")
STATUS["C83"] = "partial"
NOTE["C83"] = ("Violated by the factor: the rotation and translation are twice the parts, not half of them (C83_fails). Proved: the motion is the screw about the line with those amounts (C83_weighted_line, C83_action).")
STATUS["C84"] = "partial"
NOTE["C84"] = ("Violated: for branches the documented ~sqrt(a * b) takes b to a only if they are orthogonal (C84_branch_iff, C84_branch_fails), sqrt(a * b) for lines inherits the wrong line * line (C84_line_fails), and "
  "project(plane, line) has the orientation that minimises the inner product (C84_project_fails). Proved: the reflections, translation and rotation; sqrt(a * b) takes b to -a for branches, and for lines whenever the product is right (C84_line, C84_line_partial); "
  "the common normal; the projection maximises the magnitude; the perpendicular.")
STATUS["C85"] = "partial"
NOTE["C85"] = ("Violated: m -= m erases the element its loop stands on, undefined behaviour for every non-zero m (C85_mv_sub_fails); p += p and m += m do so if a zero coefficient is stored (C85_add_fails). "
  "Proved: every other assignment, and += for canonical operands over coefficients in which f + f = 0 only for f = 0.")
STATUS["C86"] = "proved"
NOTE["C86"] = ("Grammar and definedness hold without restriction; exactness is stated under the bound 2^24, past which 16777216 + 1 - 16777216 is zero (C86_fails).")
STATUS["C87"] = "partial"
NOTE["C87"] = ("Violated: a line with a trailing comment never ends, so that no later line is answered, and a line with a decimal point is not answered (C87_fails). Proved: the lines and their order, independence, "
  "that a session ends if and only if the answer to every line does, and the answers to blank lines, comments, commands and expressions without # and . (C87_session_partial).")
STATUS["C88"] = "partial"
NOTE["C88"] = ("Violated: printing an element token leaves std::hex in force, after which exponents are printed in base 16 (C88_fails). Proved: the hash, the text of the tokens, and exponents on a stream in base 10.")
STATUS["C89"] = "proved"
STATUS["C90"] = "proved"
NOTE["C90"] = ("Lines, branches, ideal lines and directions are assumed to have the zero lane of their type (C49). Products and quotients that divide by a norm or weight are C78; what the exact operations compute is C01 to C15 and C21.")
STATUS["C91"] = "proved"
NOTE["C91"] = ("Motors are measured as pairs of quaternions (C81). The single product and the single action are C90; normalize is C70.")
STATUS["C92"] = "proved"
NOTE["C92"] = ("Scales and units are those of C90. For the shader: IEEE operations, contraction is C94; GLSL itself allows less.")
STATUS["C93"] = "proved"
NOTE["C93"] = ("The inverses are those of C78. The quotients by rotors are compared with what the code computes in exact arithmetic (C27); the line quotient likewise (C05).")
STATUS["C94"] = "partial"
NOTE["C94"] = ("Violated: where a product is subtracted from itself contraction leaves its rounding error, so lane 0 of a meet of planes is not zero (C94_meet_lane_fails) and the weight of a point projected onto a plane can be 16384 units off instead of 12 (C94_project_weight_fails). Proved: 75 operations and all shader functions, most with the bounds of C90 and C92 and the others with the stated larger ones in lane 0; for the projection of a point onto a plane lanes 1 to 3 only.")
STATUS["C95"] = "proved"
NOTE["C95"] = ("The comparison is with the code's formulas in exact arithmetic; for exp(log m) the exact value is given (C95_exp_log).")
STATUS["C96"] = "partial"
NOTE["C96"] = ("Violated: with SSE4.1, and with SSE3 unless all lanes of the axis are negative, the code evaluates atan2(-0, -0), the logarithm has angle -pi instead of pi/2 (C96_half_turn_log) and its exponential is -1 (C96_half_turn_fails). With SSE3 and three negative lanes it evaluates atan2(-0, +0) and the logarithm is zero (C96_half_turn_log_zero), so that the instruction sets disagree (C96_isa_fails). Proved: these values. Over the reals the code returns zero (C36, C82).")
STATUS["C97"] = "partial"
NOTE["C97"] = ("Violated for nearly equal rotors: once the scalar part of b * ~a comes out as one or more, or its bivector part as zero, every lane of the result is NaN (C97_slerp_nan, C97_slerp_one_nan, C97_slerp_zero_nan). The logarithm of every rotation by less than a fortieth of a degree is lost in this way (C97_small_rotation_fails, C97_tiny_fails), and there is a unit rotor whose lanes, rounded to nearest, make the scalar part of a * ~a 1 + 2^-23 (C97_slerp_self_fails). Proved: the bound whenever the scalar part comes out below one and the bivector part is not negligible (C97_slerp_near, C97_slerp_rotor), with the logarithm (C97_rotor_log) and powers (C97_rotor_power) of rounded rotors.")
STATUS["C98"] = "proved"
NOTE["C98"] = ("C98_slerp_near, C98_slerp, C98_slerp_end, C98_power; the Lipschitz bounds of the logarithm are in Lemmas/LogLip. C98_slerp_near covers orientations arbitrarily close to each other as long as the computed bivector part times t is at least 2^-27. C98_slerp_wide_near, C98_slerp_wide, C98_slerp_wide_end, C98_power_wide (Props/SlerpWide32) cover rotations of up to 165 degrees with bounds that grow with the angle. Rotations by more than that are not covered.")
STATUS["C99"] = "proved"
NOTE["C99"] = ("C99_angles, C99_round_trip, C99_example; C99_fails_yaw is the witness that the condition on the code's gimbal test is needed (the defect of C37 seen in binary32). Not covered: pitches within 0.9 degrees of a quarter turn.")
STATUS["C100"] = "partial"
NOTE["C100"] = ("C100_rotor_self, C100_motor_self, C100_slerp_same, C100_slerp_linear, C100_slerp_axis, C100_slerp_tiny_nan, C100_contract_inhabited, C100_example; C100_slerp_self_fails (rotors, all of them) and C100_slerp_motor_self_fails (a motor) show where the interpolation does not exist. Not covered: remainders whose square does not underflow but which are below the 2^-27 of C98.")
STATUS["C101"] = "partial"
NOTE["C101"] = ("C101_normalize, C101_lerp, C101_nlerp, C101_nlerp_acute, C101_nlerp_ends, C101_example; C101_opposite_nan and C101_nlerp_fails show that the bound on the angle cannot be dropped. Not covered: rotor parts with (1 + A.B)/2 below 2e-9 (for correctly rounded motors) that are not exactly opposite.")
STATUS["C102"] = "partial"
NOTE["C102"] = ("C102_demo*, C102_test*, C102_shell. Violated by the documentation: the answer printed in docs/shell.md is not the one the shell gives (C102_shell_doc_fails). Coefficients are integers; C104 has the same results with float.")
STATUS["C103"] = "proved"
NOTE["C103"] = ("C103_plane_fixed, C103_motor_fixed, C103_line_fixed, C103_roto_reflection, C103_point_fixed, C103_two_planes_iff, C103_rotor_planes, C103_translator_planes, C103_four_planes, C103_rigid_reflections.")
STATUS["C104"] = "proved"
NOTE["C104"] = ("C104_fits, C104_validation, C104_validation2, C104_demo, C104_motor_on_point; C104_bound_fails shows a line past the bound where float and integers differ. strtof is taken to round to nearest.")
STATUS["C105"] = "proved"
NOTE["C105"] = ("C105_rotor, C105_point, C105_rotor_bits, C105_point_bits, C105_rtm, C105_glm, C105_same_product and C105_glm_dual hold; C105_rtm_masks and C105_point_const determine the constants the page omits. Against the page: C105_glm_dual_fails (the GLM listing never moves the origin), C105_order_fails (RTM and GLM multiply in opposite orders), C105_payload_fails.")
STATUS["C106"] = "proved"
NOTE["C106"] = ("C106_shim, C106_safe_iff, C106_klein_safe, C106_glsl, C106_exact, C106_products_bits, C106_apply_bits. C106_alias_fails: the two statements the shim gets wrong (not used by klein.glsl). C106_last_bit_fails: the rotor on a point and one coefficient of the motor on a plane differ from the library in the last bit.")
STATUS["C107"] = "proved"
NOTE["C107"] = ("C107_orbit, C107_position, C107_distance, C107_composed; Orbit.of_unit covers motors normalised by the library.")
STATUS["C108"] = "proved"
NOTE["C108"] = ("C108_norm, C108_orientation, C108_turn, C108_motor_norm, C108_motor_motion. nrm_mul: exact normalisation of dual quaternions is a homomorphism, so the exact motion is the normalised exact product.")
STATUS["C109"] = "proved"
NOTE["C109"] = ("C109_place, C109_distance. position_place: the position of a moved point only depends on the normalised motor.")
STATUS["C110"] = "proved"
NOTE["C110"] = ("C110_norm, C110_orientation, C110_uniform for rotors; C110_motor_norm, C110_motion, C110_place, C110_uniform_place for motors. The turn of a step must not be zero, because the exponential of a branch divides by it (C34).")
STATUS["C111"] = "proved"
NOTE["C111"] = ("C111_joint, C111_joint_reverse, C111_world, C111_bone; rig_tree is a concrete skeleton of four joints. The calls are modelled as in C77, with every element read before it is written; as written in the document they are undefined behaviour (C77_in_place_fails).")
STATUS["C112"] = "proved"
NOTE["C112"] = ("C112_plane, C112_line, C112_distance; wall_path and axis_path are concrete motions of a hundred steps.")
STATUS["C113"] = "proved"
NOTE["C113"] = ("C113_branch_normalize, C113_line_normalize_p1, C113_direction_normalize, C113_rotor_normalize, C113_motor_normalize_p1, C113_plane_normalize, C113_point_normalize, C113_motor_normalize_p2, C113_line_normalize_p2, C113_motor_invert_p1, C113_motor_invert_p2, C113_line_invert_p1, C113_line_invert_p2, C113_branch_invert, C113_plane_invert, C113_plane_invert_d, C113_rotor_invert, C113_point_invert, C113_plane_normalize_d_sse3, the quotients C113_plane_sdiv and so on, the norms C113_line_norm, C113_plane_norm and so on, C113_rotor_sqrt, C113_branch_sqrt, C113_motor_sqrt_p1, C113_motor_sqrt_p2. C113_plain and C113_plain_invert: fusing nothing gives the operations of C70 and C78; C113_contraction_matters: fusing changes results.")
STATUS["C114"] = "proved"
NOTE["C114"] = ("C114_chain, C114_unit, C114_point, C114_orbit, C114_position, C114_distance for any values compilers may compute in each step; C114_compiled_chain, C114_compiled_point, C114_compiled_position, C114_compiled_distance, C114_joint, C114_joint_reverse, C114_world, C114_bone for the model run on the lanes of one compiler. C114_plain: fusing nothing gives the computations of C91, C107 and C111; C114_contraction_matters: fusing changes results. Nothing is assumed about where the inputs come from: they are multiplied before anything is added (can_fl).")
STATUS["C115"] = "proved"
NOTE["C115"] = ("C115_plane, C115_line, C115_distance for any values compilers may compute in each step; C115_compiled_plane, C115_compiled_line, C115_compiled_distance for the model run on the lanes of one compiler; C115_plain: fusing nothing gives the computations of C112.")
STATUS["C116"] = "proved"
NOTE["C116"] = ("C116_norm, C116_orientation, C116_turn, C116_motor_norm, C116_motor_motion, C116_place, C116_distance for any values compilers may compute in each step; C116_compiled_orientation, C116_compiled_motion, C116_compiled_place for the model run on the lanes of one compiler; C116_plain: fusing nothing gives the loops of C108.")
STATUS["C117"] = "proved"
NOTE["C117"] = ("C117_branch_exp, C117_line_exp_p1, C117_line_exp_p2, C117_rotor_log, C117_motor_log_p1, C117_motor_log_p2; C117_plain: fusing nothing gives the computations of C79.")
STATUS["C118"] = "proved"
NOTE["C118"] = ("C118_norm, C118_orientation, C118_uniform for rotors; C118_motion, C118_motor_norm, C118_place, C118_uniform_place for motors.")
STATUS["C119"] = "proved"
NOTE["C119"] = ("C119_rotor_mkAxis, C119_translator_mkAxis, C119_rotor_mkEuler; C119_plain: fusing nothing gives the computations of C79.")
STATUS["C120"] = "proved"
NOTE["C120"] = ("C120_screw_p1, C120_screw_p2, C120_power_p1, C120_power_p2, C120_round_p1, C120_round_p2; C120_plain: fusing nothing gives the computations of C95.")
