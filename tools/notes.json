{
 "C01": {
  "note": "Exact arithmetic, any dimension."
 },
 "C02": {
  "note": "Exact arithmetic; the zero vector gives NaN in every component."
 },
 "C05": {
  "note": "Sup norm for finite vectors and matrices and NaN in the first component; a NaN in a later component is hidden (C05_nan_hidden_false)."
 },
 "C09": {
  "note": "Solve is exact outside the singularity window; fails inside it (C09_window_false)."
 },
 "C10": {
  "note": "3x3 solve has no pivoting: succeeds exactly when the pivots used are nonzero; fails on some nonsingular matrices."
 },
 "C11": {
  "note": "Contraction is right for cubic tensors and matching vectors; rectangular tensors index out of bounds."
 },
 "C12": {
  "note": "Exactly the real roots unless a coefficient lies in the threshold window or all three are zero; both exceptions are refuted with witnesses."
 },
 "C16": {
  "note": "Sound, sorted, complete unless there is a double root with nonzero constant term; then a root is always missed (C16_double_root_false)."
 },
 "C17": {
  "note": "Sound; complete unless 0 or the mean of the roots is a root; x(x-1)^2(x+2) misses 1."
 },
 "C18": {
  "note": "Sorted under every rounding unless the constant coefficient is (near) zero, where 0 is appended unsorted."
 },
 "C19": {
  "note": "bisect tests f_min*f_min instead of f_min*f_mid: full description of what it returns, plus refutations of the bracket and of the range."
 },
 "C20": {
  "note": "Every finite return passed the test or is a bisection midpoint, under any rounding; a NaN derivative passes the test (C20_nan_false). C20_halley_leaves_range shows that halley can return a point outside its range."
 },
 "C21": {
  "note": "Any rounding. The test uses the expected residual of the last accepted step, which C21_stale shows can be out of date after a restart."
 },
 "C22": {
  "note": "Loop bodies and domain-leaving restarts are bounded for every function and rounding; restarts after failed backtracking are not counted (C22_restarts_false)."
 },
 "C23": {
  "note": "Inside for every solver that solves the system; fails for the library's solve in its window and on the identity."
 },
 "C24": {
  "note": "Residual and t range for every patch and rounding. C24_zero_direction and C24_outside show two effects outside the statement: NaN t for a zero direction, and (u,v) outside the bounds."
 },
 "C25": {
  "note": "Containment for any directed rounding; x -= x is refuted."
 },
 "C26": {
  "note": "Contains the rounded product under any monotone rounding, and the exact product in exact arithmetic; refuted in binary32."
 },
 "C27": {
  "note": "Holds for divisors that exclude zero or end at a zero of the right sign; refuted for straddling divisors and for upper end zero."
 },
 "C28": {
  "note": "Holds unless the power is even, the interval has mixed signs and the negative end is larger; then it always fails."
 },
 "C29": {
  "note": "Intersection is exact; hull and empty are refuted."
 },
 "C30": {
  "note": "exp and abs always; log and sqrt for a nonnegative lower end, refuted otherwise."
 },
 "C32": {
  "note": "Exact for NaN-free points; NaN is accepted (C32_nan_false)."
 },
 "C33": {
  "note": "The overloads are characterised exactly; they disagree with membership in both directions."
 },
 "C34": {
  "note": "random, center and volume for ordered boxes; empty() is refuted for degenerate and doubly inverted boxes."
 },
 "C36": {
  "note": "[0,1) in exact arithmetic and binary64; [0,1] under any rounding; 1 is reached in binary32."
 },
 "C38": {
  "note": "Shape operator equations always; principal curvatures outside the discriminant window; refuted inside it."
 },
 "C39": {
  "note": "Any rounding. C39_nearest for objects whose hits carry numbers; C39_nearest_number also allows hits whose parameter is NaN, which the list ignores."
 },
 "C43": {
  "note": "Exact characterisation for all rays and boxes, also flat ones (which are never hit, C43_flat_box_missed)."
 },
 "C44": {
  "note": "Equality with the list for objects that leave the record alone on a miss and report numbers; refuted without the first (C44_dirty_miss_false) and, with the rectangles of the library, without the second (C44_coplanar_false)."
 },
 "C45": {
  "note": "Terminates for every nonempty list and any comparison; refuted for the empty one."
 },
 "C46": {
  "note": "Nearest hit when the quadratic's coefficients are outside the tiny window; C46_nearest_ideal has no such condition for formats whose tiny is 0. Inside the window the reported point need not be on the sphere (C46_window_false)."
 },
 "C51": {
  "note": "As C46, with C51_window_false."
 },
 "C53": {
  "note": "Both formulas agree away from the poles; at the poles the recorded one is NaN."
 },
 "C56": {
  "note": "In range always (any rounding); on the torus up to the residual test; exact when tiny is 0. Refuted in general: a ray through the hole, parallel to the axis, very near the inner equator is reported though it meets the torus nowhere."
 },
 "C57": {
  "note": "Nearest hit for nonnegative ranges and simple crossings; refuted for negative parameters and tangent rays."
 },
 "C58": {
  "note": "Includes that the recorded forms are those of the parametrisation."
 },
 "C59": {
  "note": "Exact for rays that cross the plane; coplanar rays are reported as NaN hits."
 },
 "C60": {
  "note": "Record and boxes; operator() returns NaN (C60_eval_false) and the forms of the record are left as they were."
 },
 "C62": {
  "note": "C62_curvature_nan: the recorded curvature is always NaN, which the statement does not forbid."
 },
 "C63": {
  "note": "Exact characterisation of the disks that the box contains; the box is flat, so aabb::hit never accepts it (C63_box_never_hit)."
 },
 "C64": {
  "note": "Holds for rays whose first crossing is in range; refuted on the far wall and for rays inside the surface."
 },
 "C65": {
  "note": "Holds for rays whose first crossing is in range; refuted from inside."
 },
 "C67": {
  "note": "First derivatives and the unmixed second ones; mixed ones lack the factor radius."
 },
 "C68": {
  "note": "Mean curvature zero; gaussian curvature and bounds refuted, with the factor 4 pi^2."
 },
 "C69": {
  "note": "Range for every solver on non-axial rays, distance bound through the residual test; axial rays refuted."
 },
 "C72": {
  "note": "For every linear solver used in place of matrix::solve; with the one of the code, hit is undefined on every ray that meets the ball of the surface (C135)."
 },
 "C73": {
  "note": "For any boundary that reports non-NaN parameters, plus an instance for the sphere."
 },
 "C79": {
  "note": "Refuted for the dielectric built with an emission texture; the rest holds."
 },
 "C80": {
  "note": "Any world, any stateful materials; also instantiated with the library's materials and lists."
 },
 "C84": {
  "note": "The image does depend on the schedule; for materials that do not draw, all schedules agree."
 },
 "C85": {
  "note": "Range in exact arithmetic and under any rounding for at least two pixels; one-pixel images divide by zero."
 },
 "C86": {
  "note": "Range and pixels when not all times are equal; undefined otherwise."
 },
 "C88": {
  "note": "Nonnegative and infinite channels; undefined for negative and NaN; with four channels the opacity is gamma corrected (C88_alpha_false)."
 },
 "C89": {
  "note": "Exact, any rounding with the stated laws, and the IEEE formats; NaN input is undefined (C89_nan) as the statement excludes it."
 },
 "C90": {
  "note": "Every table: nodes are hit exactly and the map is Lipschitz with the largest step of the table."
 },
 "C91": {
  "note": "Inverse on grid points for windows not beginning at 0 and images of at least 2 pixels; refuted otherwise."
 },
 "C93": {
  "note": "Sphere, ellipsoid, rectangles, disk, medium keep the record on a miss; cylinder, torus and helicoid do not; enneper keeps it unless the residual test fails."
 },
 "C95": {
  "note": "Refuted for the helicoid."
 },
 "C97": {
  "note": "Every value returned is near a root, for both functions; convergence near each root; from 0 the search never ends."
 },
 "C98": {
  "note": "Colour is determined by the direction of the returned value; at the root 1 the seam of the colour map is visible."
 },
 "C99": {
  "note": "Refuted for points of large modulus (C99_halley_false). C99_near_partial: every returned value of modulus at most 1/(100 eps) is within 4 eps of a fifth root of unity. C99_positive: the search from every positive real ends near 1."
 },
 "C100": {
  "note": "Any rounding direction, with underflow; the compiler flags of the project (-ffast-math) allow the compiler to remove the compensation, which the model does not represent."
 },
 "C101": {
  "note": "Any rounding direction, with underflow, any dimension."
 },
 "C102": {
  "note": "Formats without overflow and underflow; any dimension, explicit constants in space."
 },
 "C103": {
  "note": "Formats without overflow and underflow; all branches of quadratic_roots."
 },
 "C104": {
  "note": "Formats without overflow and underflow."
 },
 "C105": {
  "note": "Exact arithmetic. For equal semi-axes (C105_sphere_false) and at the poles of an ellipsoid (C105_pole_false) the colour is undefined. The helicoid's curvature and bounds are both too small by the same factor, which cancels in the picture."
 },
 "C106": {
  "note": "Any format. The upper end of the range is excluded because the list compares with a strict inequality. C106_scene_number also allows members that report NaN parameters on some rays."
 },
 "C107": {
  "note": "Exact arithmetic. For every ray the first crossing of a face is found (C107_crossing); it is the first point of the surface unless the ray starts on a face and runs along it (C107_along_false). The class cannot be instantiated as written (it uses an older interface of the list); its algorithm is modelled."
 },
 "C108": {
  "note": "Exact arithmetic."
 },
 "C109": {
  "note": "Exact arithmetic."
 },
 "C110": {
  "note": "Exact arithmetic for the geometry."
 },
 "C111": {
  "note": "The heights are for IEEE float and double with rounding; the shape of the pixels is in exact arithmetic. ellipsoid.cpp makes the camera for the aspect ratio 1 and stretches its picture (C111_ellipsoid_false)."
 },
 "C112": {
  "note": "Exact arithmetic. Proved for the metal sphere and, up to touching, for the ground; refuted for the glass sphere and for neighbouring small spheres (C112_overlap_false)."
 },
 "C113": {
  "note": "The bounds on one step are stated for the loop body, the exact solutions for the whole search. Exact arithmetic."
 },
 "C114": {
  "note": "Exact arithmetic. The descent needs the hypotheses of C23."
 },
 "C115": {
  "note": "Exact arithmetic. The starting point must not already be accepted and the plane through it and the ray must make an angle above eps with the surface."
 },
 "C116": {
  "note": "Exact arithmetic. The torus theorems need 0 ≤ r ≤ R; a torus that meets itself is not covered. The area is that of the parametrized patch over the unit square; that texture coordinates invert the parametrization is C47 and C58."
 },
 "C117": {
  "note": "Formats with rounding but without overflow and underflow (F.Free). The finite parameter is a hypothesis; it holds whenever both ends of the range are finite."
 },
 "C118": {
  "note": "Formats with rounding but without overflow and underflow (F.Free)."
 },
 "C119": {
  "note": "C119_rect and C119_sphere prove the claim under a condition on the scattered direction. C119_rect_false shows that for directions close to the plane it fails in single precision. The condition of C119_sphere requires that the coordinates of the sphere, the ray and the radius are not much larger than the outward component of the direction, so it says nothing about spheres of radius 1000 with directions of length 1."
 },
 "C120": {
  "note": "C120_image is the general statement: a scene in which every query and scattering is defined and bounded yields a complete image. Termination of the rejection loop is C75_terminates, an invariant of the generator over its whole period. disk and torus_curvature are proved in exact arithmetic only, because with rounding a scattered direction can vanish and turn into NaN. The curvature programs of the ellipsoid, Enneper's surface and the helicoid are not covered; the first has undefined behaviour at the poles (C105_pole_false)."
 },
 "C123": {
  "note": "Refuted. scatter adds to the normal a point of the half ball on its own side, so every direction is within 45 degrees of the normal (C123_cone) although by Lambert's law half should not be (C123_cosine_false). A floor beside a lamp lower than its distance stays black although the lamp is in plain view (C123_wall_false). C123_unlit is the general statement about pictures. Exact arithmetic."
 },
 "C124": {
  "note": "C124_ray and C124_image: proved in exact arithmetic for every scene whose objects are moved (Sphere.moved, Ellipsoid.moved, Torus.moved, Disk.moved, Rect.xy_moved etc. and Bvh.moved show that the classes with a centre can be) and whose textures do not look at the position. A checker_texture does, so a checkered object changes its colours when it is moved (C124_checker_false). A cylinder, which has no centre, can be moved along its axis only (C124_cylinder). C124_build: the moved objects are built into the moved tree, if their boxes move with them and the sort goes by the comparisons only; the boxes of disks do not move (C124_disk_box_false)."
 },
 "C125": {
  "note": "C125_height, C125_nodes, C125_cost, C125_asked: proved for every Scalar, with no assumption on the arithmetic. Asking each object at most once is false: an object left alone in a node is both children of it (C125_twice_false, three objects); C125_leaves bounds this by a third of the objects. asked and boxTests are ghosts that follow the calls of hit."
 },
 "C126": {
  "note": "C126_law and C126_path: exact arithmetic, any boundary object whose hit finds the nearest point of a surface that the line of the ray crosses twice, at least 100*eps apart, any range and any origin (also inside). C126_ball_partial: the instance for sphere, all rays outside the thresholds of the root finder, including rays that miss or graze. Refuted: chords shorter than 100*eps in the parameter (C126_thin_false, a unit ball), boundaries crossed more than twice (C126_ring_false, C126_hole_false, a torus)."
 },
 "C127": {
  "note": "C127_far_false refutes it in every IEEE format of at least 9 bits (float and double among them): a ray that enters a sphere or ellipsoid at a parameter of 256 or more is never scattered, because rec1.t + 100*eps rounds to rec1.t. C127_near_partial: for entries between 0 and 64 the second query does not return the first crossing."
 },
 "C128": {
  "note": "C128_mirror, C128_reverse, C128_pane and C128_ball prove the directions in exact arithmetic; total reflection never happens on the way back. C128_probability_false refutes equal probabilities: reflectance takes the cosine of the incoming angle on both sides, so grazing entry into index 2 reflects with probability 1 and the reversed path with less than 1/8."
 },
 "C129": {
  "note": "C129_hit and C129_ray prove it under any rounding for objects that report the same first hit whatever bound they are given and are never hit at the same parameter. C129_spheres_partial and C129_image_partial discharge these conditions for disjoint spheres in exact arithmetic with the root finder's threshold set to 0; other shapes are shown to qualify one by one (Steady) but not inside whole images. C129_tie_false: of objects in the same place the first one added is seen. C129_curvature_false: the curvature recorded on a rectangle is that of an object asked earlier."
 },
 "C130": {
  "note": "C130_miss, C130_hit, C130_seen and C130_first carry explicit constants; the width of the rim is 29 units of rounding of the squared distance from the ray's origin plus the squared radius. C130_rim: the width cannot be dropped. In binary32 a ray from 4096 units away that passes 0.8 percent inside the rim is missed. Formats with overflow or underflow are outside the positive theorems."
 },
 "C131": {
  "note": "A draw is modelled as a load of the 64-bit state followed by a store; C131_stream and C131_image hold for every interleaving, C131_with_lights and C131_cylinder apply them to two programs, C131_sequential and C131_ends_* show that complete runs exist and link to the sequential model. C131_lost: updates get lost, so two threads can use the same random numbers. Outside the model: that the standard calls the unlocked access a data race, the std::mt19937_64 generators of dielectric, isotropic and constant_medium, and whether every fair interleaving ends."
 },
 "C132": {
  "note": "In exact arithmetic. The sharpness (greatest value attained) fixes the factors 20, 10 and 1."
 },
 "C133": {
  "note": "In exact arithmetic. The constant and the neighbourhood depend on the ray."
 },
 "C134": {
  "note": "Exact arithmetic with the threshold of the quadratic solver set to zero. Proved for every ray of the camera that neither touches the ellipsoid nor passes through one of its two poles; refuted for the ray through the middle of frame 90, which meets a pole, where the recorded curvature is not a number and the colour map has no defined value."
 },
 "C135": {
  "note": "Refuted. compute_uvt calls Newton's method from u = v = 0, where an entry of the first column of the matrix is zero and matrix::solve reads an element that it never wrote. Proved for every monotone rounding that hit never returns true with defined behaviour, and in exact arithmetic that it is undefined exactly for the rays that meet the ball within their range and a correct miss otherwise; the image of enneper.cpp is undefined for every order of the rows."
 },
 "C136": {
  "note": "The general bound holds for every monotone rounding for which L is a number of the format; the two programs are treated in exact arithmetic, enneper.cpp for every value that indeterminate elements may hold. The bound 2 is attained."
 },
 "C137": {
  "note": "Proved in exact arithmetic. Perpendicular means perpendicular to the velocity of every differentiable curve in the surface; the body is the solid the surface bounds (for disk and rectangles the half-space behind the plane, for the cylinder the infinite solid cylinder). For sphere, ellipsoid, cylinder and torus the recorded point is assumed to be on the surface, which C46, C51, C65 and C57 provide; for rectangles the ray is assumed not to be parallel to the plane (see C59)."
 },
 "C138": {
  "note": "Refuted by the torus, which records its second form for the outward normal: its mean curvature is -(2ρ-R)/(2rρ) at distance ρ from the axis, negative on the whole outer half. Sphere (1/R), cylinder (1/(2r)) and ellipsoid (the classical formula, positive) agree with each other, except at the poles of sphere and ellipsoid, where the record holds no numbers."
 },
 "C139": {
  "note": "Refuted: all generators are seeded with the same two constants. Two matt materials hit with the same normals scatter into the same directions for ever; in each picture sample 3k has the place ((a+1)/2, (b+1)/2) in its pixel, where (a, b, c) is trial 2k of each matt material; and the first bounce of every matt material goes into the normal plus or minus one fixed vector. C139_tasks (how many numbers are used before a pixel) holds."
 },
 "C140": {
  "note": "Refuted: Schlick's formula still mirrors the share (1 - cos)^5 of the rays that come at an angle (C140_mirror_false), and each pane uses up a level of depth, so that eight panes are black (C140_eight_false). It holds for rays whose random number is at least (1 - cos)^5 (C140_straight_partial), in particular for perpendicular rays through fewer panes than the depth (C140_panes_partial)."
 },
 "C141": {
  "note": "Refuted for the second coordinate: the upper end of vbounds is the smaller of the distances from the axis at the two ends of the range instead of the larger, and a ray that starts nearer to the axis than it meets the surface is reported as a miss (C141_miss_false). C141_clip and C141_ubounds hold (nothing calls ubounds); C141_vbounds_partial says for which intersections the bounds on v are right."
 },
 "C142": {
  "note": "C142_tiles holds for every rounding: pieces of one rectangle are hit exactly where the whole is, and report the same distance, point and normal. C142_box holds in exact arithmetic. With rounding the claim is false for rectangles at a right angle, in float and in double: a ray through a point of the common edge misses both walls and sees the lamp behind them (C142_edge_false)."
 },
 "C143": {
  "note": "C143_axial: a ray parallel to the axis and off it is reported with the parameters of the only point that it meets. C143_level: a ray orthogonal to the axis that crosses the line of the surface at its height inside the range is reported there. Refuted in two special positions: a ray above the line u = 0 may be given the lower of its two points (C143_seam_false), and a ray along a line of the surface is missed unless the radius is 1 (C143_ruling_false)."
 },
 "C144": {
  "note": "By induction on the expression. C144_directed: sums, differences and exponentials with any directed rounding. C144_exact: all operations without rounding. C144_tight: the exact range if no variable occurs twice. C144_product_false: products are computed in the mode at the start, so x * x in single precision may miss the square of x."
 },
 "C145": {
  "note": "By induction on the number of hits: (p - c) x u is the same along the whole path inside and is the index times smaller than outside. C145_leaves: the angle and the plane. C145_may_leave: the ray meets the sphere again, and leaves exactly if the random number is at least s < 1. C145_trapped: a flat ray from inside never leaves."
 },
 "C146": {
  "note": "C146_directions by induction on the list of mirrors, C146_corner for each order of three of them. C146_closed: in a room of lamps the colour is that of the walls, if the ray is still in the room at the offset 1000 eps. C146_leak_false: in a room of perfect mirrors a ray mirrored within the offset from an edge misses the other wall, and ray_color yields the background."
 },
 "C147": {
  "note": "The probability is Lebesgue measure for uniform numbers and the product of three normal distributions for isotropic; that the generators have these distributions is not claimed (see C84, C139 for the generator). C147_lambertian_draw links the vector at which the loop ends to the direction; C147_lambertian is the volume of a part of the ball, by slices. It is not Lambert's law, see C123."
 },
 "C148": {
  "note": "The first claims are proved. The last is refuted: (-1, 0, 0) can be returned, (1, 0, 0) cannot."
 },
 "C149": {
  "note": "Proved in exact arithmetic for metal, glass and light with textures that do not look at the place. Refuted for matt material, whose directions are drawn in the axes of space."
 },
 "C150": {
  "note": "The hits: for every format whose rounding commutes with the factor (all factors in exact arithmetic, powers of two for rounding to p bits), without underflow and overflow. The colours and the image: provided that nothing on the path of a ray lies between the fixed distance 1000*eps in the one unit and in the other. Refuted without this: a small lamp disappears. Cylinders: only if the records before the call correspond too, for the colours the temporary record of hittable_list; refuted for unrelated records, since the cylinder may report what the record held. Trees: the same tree is built and met, if the sort goes by the comparisons only, for spheres, ellipsoids and cylinders; refuted for the boxes of rectangles, which are thickened by a number without a unit. Not covered: torus, the numerically solved surfaces, fog, whose constants have no unit either."
 },
 "C151": {
  "note": "In exact arithmetic. Half of the small balls are meant to be matt, a quarter metal, a quarter glass; that share is stated by the thresholds of the random number, not as a probability."
 },
 "C152": {
  "note": "In exact arithmetic, with a uniform random number, for rays whose quadratic has no coefficient between zero and numeric_limits::min() (see C51) and whose crossings are at least 100*eps apart."
 },
 "C153": {
  "note": "In exact arithmetic. Enclosure and glass are proved; of the helicoid only the part between the heights -1 and 1 is shown to be in the picture. Refuted: the ends of the axis, at the heights -1.5 and 1.5, are not in the picture. The cylinder reaches from -3 to 3, twice as far as the helicoid."
 },
 "C154": {
  "note": "In exact arithmetic."
 },
 "C155": {
  "note": "In exact arithmetic with ideal random numbers; for boundaries that a ray crosses twice."
 },
 "C156": {
  "note": "In exact arithmetic, for curvatures of the normal section that are not below the square of epsilon."
 },
 "C157": {
  "note": "True for movements along the axes, where the bound is attained (C157_speed); for other movements a factor of three is needed, since max_norm of a matrix is its largest entry and not the operator norm (C157_norm_false). In exact arithmetic."
 },
 "C158": {
  "note": "Greatest distance, arithmetic and convergence in exact arithmetic; not negative and monotone for every rounding. Refuted for the rounded width: width() does not round upward, so members can be farther apart than it says (C158_rounded_false)."
 },
 "C159": {
  "note": "Proved in exact arithmetic with the distance of one scanning step. Refuted for the plain reading that the result is a zero up to rounding: on a cubic with its true derivative newton returns a point where the function is above 1/10 although it has a zero in the range (C159_zero_false)."
 },
 "C160": {
  "note": "In exact arithmetic. Proved: the wall between the heights -6 and 6 is in the frame, the lamp is not, and straight lines from the wall to the lamp on its outer side meet nothing. Refuted: no point of the two rims is in the frame; points of the wall with x at most 0.9 are black with certainty, although part of the lamp may be in sight, since the material scatters within 45 degrees of the normal only (C123). In the frame means inside the field of view, nothing is said about points behind others."
 }
}