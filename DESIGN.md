# Formal model of DifferentiableRaytracing in Lean 4

This file was written before the proofs and is kept current.
Section 6 lists, per property, what is modelled and how it is proved.
Section 7 lists every place where the code disagrees with a property.

## 1. What is modelled

The C++ library in `/repo/include/drt` is a header-only template library over a scalar type `Real`.
The Lean model mirrors that shape.
Every modelled function is a Lean function polymorphic over a class `Scalar R`, which lists the operations the C++ code performs on `Real` (arithmetic, comparisons, libm calls, `numeric_limits`).
Every definition cites the file and lines it follows.

Three instances of `Scalar` exist:

1. `Fl F`, for a *format* `F`.
   Values are `nan`, `-inf`, `+inf` and finite reals.
   Special values follow IEEE-754 (NaN compares false, `inf*0` is NaN, `x/0` is an infinity, `0/0` is NaN, ...).
   A finite result is passed through `F.round : ℝ → Ext`, an arbitrary function that may also overflow to an infinity.
   Theorems stated for **all** `F` therefore hold for binary32, binary64 and any other rounding.
2. `Fl F` with `F.Exact`: `round` is the identity.
   This is "IEEE special values, exact arithmetic on finite values".
   Algebraic and geometric theorems are stated here.
   The constants `epsilon()`, `min()`, `max()` stay arbitrary non-negative reals, so thresholds in the code stay visible.
3. `Float`, Lean's binary64, used only to run the model on the repository's own unit-test inputs (`Verif/Tests`).
   No theorem depends on it. All deterministic expectations of `/repo/tests` are reproduced, except that `empty()` of a disjoint intersection is false (the project is compiled with `-ffast-math`, where comparing NaNs is unspecified).

Undefined behaviour and failures are distinct outcomes, not assumed away:

* reading a matrix element that was never written gives the outcome `none` (3x3 `solve`);
* conversion of NaN or an out-of-range value to an integer gives `none` (`png.hpp`, `color_maps.hpp`);
* out-of-range reads give `none` (tensor contraction, colour tables);
* `assert` failure gives `abort` (n-D `newton`);
* non-terminating recursion is visible because the modelled recursion is fuel-indexed and the theorem says that no fuel suffices (bvh on an empty span).

In/out parameters are explicit.
`hit` takes the prior `hit_record` and returns `Bool × HitRecord`, so stale or clobbered fields are visible.
Random generators are explicit state.
`std::function` arguments are arbitrary Lean functions, that is, deterministic and without side effects.

## 2. Trusted base

* Lean 4.33.0 kernel.
* Axioms: `propext`, `Classical.choice`, `Quot.sound` only (`tools/axioms.py` prints those of all property theorems). No `sorry`, no own axioms, no `native_decide`, no `bv_decide`.
* Mathlib definitions that appear in statements: `ℝ`, `Real.sqrt/sin/cos/arccos/arcsin/exp/log/pi`, `Complex.arg`, `dotProduct`, `crossProduct`, `Matrix.det`, `HasDerivAt`, `BitVec`, `List`.
* The faithfulness of the model to the C++ text. It was written by reading; the code was neither compiled nor run.

Simplifications, stated once here and cited again at the definitions:

* **S1 rounding.** Exact-arithmetic theorems say nothing about rounding error. The rounding-independent theorems are marked "any F". C100-C104 bound the rounding error of the arithmetic kernels, of `quadratic_roots` and of the sphere; C117 and C118 bound it for tori, rectangles, cylinders and ellipsoids; C119 weighs it against the offset of scattered rays; C130 bounds its effect on which rays hit a sphere.
* **S2 signed zero.** There is one zero. The sign of `x/0` for `x ≠ 0` is an arbitrary function of `x` in the format. (The project is compiled with `-ffast-math`, which makes the sign of zero unspecified.)
* **S3 fast-math.** The Makefile passes `-fno-finite-math-only -ffast-math`, in that order, so the later flag re-enables finite-math-only and the compiler may delete NaN tests. The model gives NaN tests their IEEE meaning. Reassociation is not modelled; it would allow the compiler to remove the compensation term of `difference_of_products` (C100).
* **S4 M_PI** is the real number π in exact formats and an arbitrary real otherwise.
* **S5 integers** (`int64_t`, `size_t`) are unbounded, except in `pcg.hpp`, where they are `BitVec`, and in the cost file name, where the `size_t` wrap-around is modelled.
* **S6 libm** functions are the real functions followed by `round`.
* **S7 output** to `std::cerr`/`std::cout`, counters used only for diagnostics, and PNG encoding (lodepng) are not modelled.
* **S8 memory**: `shared_ptr` ownership and allocation failure are not modelled.

## 3. What is not modelled

`lodepng`, the `main` function of `final_scene.cxx`, which does not compile (the other programs are in `Model/Programs.lean`, `Model/Surfaces.lean`, `Model/Animation.lean` and `Model/Fractal.lean`), the progress messages and the command line of the programs, stream output operators, wall-clock cost measurement (its *values* are arbitrary inputs to the cost image), compile-time behaviour. The threads of `render_scene` are modelled as interleavings of loads and stores of the shared `pcg` states (`Model/Threads.lean`, C131); weaker memory orders, the shared `std::mt19937_64` generators and the fact that the standard calls the unlocked access undefined are not modelled.

Three compile-time facts matter to a user and are recorded here because the model cannot express them:

* `enneper.hpp` uses the include guard of `helicoid.hpp`, so including both drops one of them.
* `box.hpp` calls `hittable_list::add` with one argument and returns a `shared_ptr` as `bool`; it cannot be instantiated. Its algorithm is modelled with the present interface (C107).
* `bvh_node` does not override the pure virtual `operator()(u,v)`, so it cannot be instantiated. Its algorithm is modelled as written. `interval`'s `abs` and `distance` call unqualified `abs`/`max` on scalars inside `namespace drt`; they are modelled as intended.

## 4. Layout

* `Verif/Scalar/*` scalar class, extended reals, formats, simp set.
* `Verif/Model/*` the model, one file per header.
* `Verif/Spec/*` small independent specifications (surfaces as point sets, boxes, nearest hit, ...), written without the model's helpers.
* `Verif/Lemmas/*` helper lemmas.
* `Verif/Props/*` the property theorems, named `C<nn>_...`, with a non-vacuity `example` beside each.
* `Verif/Tests/*` the model run on `Float`.

## 5. Conventions

* A theorem name starts with the property id.
* `_partial` marks a theorem that covers part of the property; what is missing is said in its comment and in MANIFEST.json.
* `_false` marks a refutation: the code violates the property, with a concrete witness.

## 6. Plan per property

E = exact arithmetic, A = any format (any rounding), D = discrete (no reals).

| id | model | method |
|----|-------|--------|
| C01 | `vec` operators, `dot` as loops over `Fin n` | E: reduce to `dotProduct` of Mathlib, any dimension |
| C02 | `normalize` | E: `norm` is the square root of `dotProduct`; 0/0 is NaN in every component |
| C03 | `cross` with `difference_of_products` | E: equality with `crossProduct` of Mathlib |
| C04 | `reflect` | E: algebra of inner products |
| C05 | `max_norm` loop | E: induction on the loop; A: refutation for NaN in a later component |
| C06 | `determinant` of 2x2 and 3x3 matrices | E: equality with `Matrix.det` |
| C07 | `inverse` | E: cofactors times the matrix; the test against the threshold as the case split |
| C08 | matrix products, flat storage | E: refinement of the flat array to functions; index arithmetic |
| C09 | 2x2 solve | E: case split on the pivot test; refutation inside the `eps^2` window |
| C10 | 3x3 solve with `Option` cells | E: correctness when every divisor is nonzero; refutation with the identity matrix (uninitialised read) and with a nonsingular matrix giving NaN |
| C11 | flat tensor, reads return `Option` | square case correct; in-bounds iff; refutation for non-square |
| C12 | `quadratic_roots` | E: soundness and completeness by cases on the thresholds and the discriminant; refutations inside the windows |
| C13 | `quadratic_roots` | A: every return statement has 0 or 2 elements; monotone rounding orders them |
| C14 | `first_quadratic_root_in_range` | E: case split over C12; A: range |
| C15 | `discriminant` | E: algebra |
| C16 | cubic | E: trigonometric and Cardano branches, completeness; refutation for double roots |
| C17 | `quartic_roots` | E: Ferrari factorisation over the resolvent cubic; the Halley polish fixes exact roots; refutation for a root at the mean |
| C18 | `quartic_roots` | A: sortedness of the final sort; refutation when the constant term is 0 |
| C19 | bisect | E: refutation (sign test compares f_min with itself); partial: containment and location |
| C20 | `newton`, `halley` in one dimension | A: invariant of the loop over any function; refutation with a NaN derivative |
| C21 | `newton` in n dimensions with explicit random state | A: loop invariant on the last accepted step |
| C22 | `newton`, `halley` in n dimensions | A: fuel that is proved sufficient for the counted restarts; the others are refuted |
| C23 | `newton` in n dimensions | E: a clipped step stays in a convex set; refutations for `solve` in its window |
| C24 | `ko_method` | A: loop invariant; the `t` test at every return |
| C25 | `interval` `+`, `-` with abstract directed rounding and explicit rounding-mode state | A: order arguments; refutation for `x -= x` (aliasing) |
| C26 | `interval` `*` | A: a product over two ranges has its extremes at the four corners, monotone rounding; refutation in `binary32` (the mode is not switched) |
| C27 | `interval` `/` | A: cases on the divisor; refutations when it straddles or ends at zero |
| C28 | `interval` `pow` | E: monotonicity of powers by parity; refutation for mixed signs |
| C29 | `interval` `intersect`, `hull`, `empty` | A: order arguments; refutations of `hull` and `empty` |
| C30 | `interval` `exp`, `log`, `sqrt`, `abs` | A: monotone functions; refutations for negative lower ends |
| C31 | `interval` comparison, `distance` | A and E: order arguments, metric laws |
| C32 | `bounds::contains(vec)` | A: loop over the sides; refutation for NaN |
| C33 | `bounds::contains(x,y)` and `(x,y,z)` | A: exact characterisation; refuted in both directions |
| C34 | `bounds::random`, `center`, `volume`, `empty` | E: convex combinations; refutation of `empty` |
| C35 | `pcg` state on `BitVec 64` | D: Hull-Dobell via 2-adic valuation |
| C36 | `pcg_real_01` | E and `binary64`: range; refutation in `binary32` |
| C37 | `set_face_normal` | A: either sign; E: scalar product with the ray |
| C38 | curvatures of `hit_record` | E: positive definiteness gives real principal curvatures; refutation inside the window |
| C39 | `hittable_list::hit` as fold with a shared temporary record | A: loop invariant over arbitrary objects |
| C40 | `hittable_list::hit` | A: the same invariant; NaN fails the comparison |
| C41 | `hittable_list::add`, `clear` | D: induction on histories |
| C42 | `hittable_list::bounding_box` | A: induction on the list; least upper bound of boxes |
| C43 | aabb | E with infinities and NaN from zero direction components |
| C44 | `bvh_node::hit`, construction with oracle for axis and sort | A: induction on the tree; refutation for objects that write to the record on a miss |
| C45 | `bvh_node` construction | D: induction on the length of the span; refutation for an empty span |
| C46 | `sphere::hit` | E: C12 and C14 for the quadratic of the distance from the centre; refutation in the window |
| C47 | record of `sphere::hit` | E: unit normal by division by the radius; arguments of `atan2` and `acos` |
| C48 | `sphere::operator()` with Jacobian and Hessian | E: `HasDerivAt` of sine and cosine |
| C49 | forms recorded by `sphere` | E: scalar products of the derivatives of C48 |
| C50 | `sphere::bounding_box` | E: bounds of coordinates and the points where they are attained |
| C51 | `ellipsoid::hit` | E: as C46 after scaling the axes |
| C52 | `ellipsoid::get_uv`, normal | E: `atan2`/`acos` invert the parametrisation; gradient of the defining function |
| C53 | gaussian curvature of `ellipsoid` | E: algebra of both formulas; bounds by the least and greatest axis; NaN at the poles |
| C54 | `ellipsoid::bounding_box` | E: as C50 |
| C55 | coefficients in `torus::hit` | E: expansion of the implicit function along the ray |
| C56 | `torus::hit` | A: range; E: residual test bounds the distance; exact root when `eps` is 0; `C56_ghost_false`: a ray through the hole that meets nothing is reported, because `quartic_roots` takes a small constant term for zero |
| C57 | `torus::hit` | E: C17 and C18 for the quartic of C55; refutations for negative ranges and tangents |
| C58 | `torus::get_uv`, normal, forms, curvature, box | E: trigonometric parametrisation, `HasDerivAt`, bounds of the cosine |
| C59 | `xy_rect`, `xz_rect`, `yz_rect` `hit` | E: one division; NaN for coplanar rays refutes the rest |
| C60 | records and boxes of the rectangles | E: affine coordinates; `operator()` returns NaN (refuted) |
| C61 | rotation in `disk` | E: orthogonality and determinant by algebra from the length of the normal; the opposite pole separately |
| C62 | `disk::hit` | E: plane crossing and distance from the centre; rotation of C61 for the texture |
| C63 | `disk::bounding_box` | E: exact characterisation, refuted for other centres and tilted normals |
| C64 | `cylinder::hit` | E: C14 for the quadratic in x and y; refutation on the far wall |
| C65 | `cylinder::hit` | E: as C64; refutation from inside |
| C66 | `cylinder::get_uv`, forms, box | E: `atan2`, `HasDerivAt` |
| C67 | `helicoid::operator()` with derivatives | E: `HasDerivAt`; refutation of the mixed derivatives |
| C68 | curvature of `helicoid` | E: forms of the parametrisation; refutation with the factor 4π² |
| C69 | `helicoid::hit`, `bounding_box` | E: range and residual test for any solver; the least box around the surface; refutation on the axis |
| C70 | `enneper::operator()` with derivatives | E: `HasDerivAt` of polynomials |
| C71 | forms and curvature bounds of `enneper` | E: algebra of the derivatives of C70 |
| C72 | `enneper::hit`, `bounding_box` | A: range and residual test for any solver; E: distance, and the roots of the quadratic confine the point to the ball |
| C73 | `constant_medium::hit`, `bounding_box` | E: order of the two crossings and the sampled distance, for any boundary; convexity for the box |
| C74 | `lambertian::scatter`, `random_in_hemisphere` | E: the point of the ball is turned to the side of the normal |
| C75 | `random_in_unit_sphere` with the generator as state | the period of C35 contains an accepted triple; monotone rounding |
| C76 | `metal::scatter` | E: C04 and the sign of the scalar product |
| C77 | `refract`, `dielectric::scatter` | E: sine law from the perpendicular part; length one |
| C78 | `reflectance` | E: range of Schlick's polynomial |
| C79 | emission of the materials | A: unfolding of the virtual calls; refutation for the dielectric with an emission texture |
| C80 | `ray_color` with arbitrary stateful materials | A: induction on depth |
| C81 | `ray_color` in a uniformly bright surrounding | E: induction on depth |
| C82 | camera | E |
| C83 | loop of `render_scene` as a set of atomic steps under any interleaving | D: permutation invariance, injectivity of the index |
| C84 | generators shared by the threads of `render_scene` | refutation with two schedules; agreement for materials that do not draw |
| C85 | sampling in `render_scene` | E and A: range of the quotients; division by zero for one pixel |
| C86 | `costScalar` in `render_scene` (cost image) | E: range between the least and the greatest time; refutation when they agree |
| C87 | name of the cost image | D: string argument |
| C88 | `to_8bit_rgba` | E and A: clamping and monotone rounding; undefined conversions and the opacity of four-channel colours refute the rest |
| C89 | colour maps (tables transcribed) | A: range of the index; kernel evaluation over the whole table |
| C90 | colour maps | E: interpolation lemma, Lipschitz with the largest step of the table |
| C91 | pixel map of `newton_fractal.cpp` | E: affine maps; refutation for windows that begin at 0 |
| C92 | `display_progress` | monotone rounding: the width lies between 0 and 100 |
| C93 | frame property of each `hit` | A: per surface; refutations for torus, cylinder and helicoid |
| C94 | output sequence of pcg | D: counting over the full period |
| C95 | outcome `none`/abort of each `hit` | A: per surface; refutation for the helicoid |
| C96 | polynomials of `newton_fractal.cpp` | E over `Complex`: derivatives and factorisation |
| C97 | `complex_newton` | E over `Complex`: size of the last step bounds the distance from a root; contraction near roots; from 0 the search never ends |
| C98 | colours of `newton_fractal.cpp` | E: `Complex.arg` and the table of the colour map; refutation at the seam |
| C99 | `complex_halley` | E over `Complex`: accuracy of returned values of moderate modulus, convergence from every positive real; refutation far away |
| C100 | `difference_of_products`, `cross`, `determinant`, `discriminant` | standard error model (`Scalar/Standard.lean`), any rounding direction, with underflow |
| C101 | `dot`, matrix products | standard error model; induction on the dimension |
| C102 | `normalize` | standard error model without overflow and underflow |
| C103 | `quadratic_roots` | standard error model; residual identity `(s²-D)/4a` |
| C104 | `sphere::hit` | running error calculus `App` (`Lemmas/Error.lean`) |
| C105 | textures of the example programs (`Model/Scenes.lean`) | E: curvature theorems of the surfaces, affine and logarithmic scales; refutations at poles and for spheres |
| C106 | hittable_list over `FindsNearest` surfaces | A: C39 with the first parameter of every surface |
| C107 | box.hpp | E: C106 for the six rectangles, NaN hits ignored by the list; set equality of the faces and the boundary; a ray from outside enters through a face that it crosses |
| C108 | `camera` | E: coordinates in the camera's frame |
| C109 | backlight disk of ellipsoid_curvature.cpp | E: C62 and the frame of the camera |
| C110 | frames of ellipsoid_curvature.cpp | E: bounds `|q| ≤ 2.5`, `pi > 3.14`, `tan x ≥ x`; D: file names by the digits of the number |
| C111 | image heights and pixel steps | `binary32`, `binary64`: the rounded quotient is the integer because `5k` is never a power of two; E for the pixel steps |
| C112 | placement of render_spheres.cpp | E: triangle inequality; refutations by overlapping spheres |
| C113 | `Newton1.next`, `Halley1.next`, `newton1`, `halley1` | E: remainders of the tangent and of the osculating parabola by the mean value inequality; exact solutions by computation |
| C114 | `newtonN`, `halleyN` | E: invariant of the loop for the descent; one body by computation for affine and Möbius systems |
| C115 | `koMethod` | E: the Gram matrix inverts the projection, a vector orthogonal to a frame is zero |
| C116 | `Sphere.area`, `Sphere.volume`, `Torus.area`, `Torus.volume`; spec `SurfaceArea` in `Spec/Area.lean` and Mathlib's Lebesgue measure | E: the integrand is computed in closed form; the solid torus is sliced into rings, and the integral of their areas is reduced to the area of a disc |
| C117 | `Torus.residual`, `Torus.expectedResidual`, `Torus.refine`, `Torus.hit` | R (formats without overflow and underflow): the error of both sides of the residual test is bounded by the magnitudes of their terms; the equation factors into the distance from the torus and a factor that is bounded below |
| C118 | `Rect.hitPlane`, `Cylinder.hit`, `Ellipsoid.hit` | R (formats without overflow and underflow): rectangles by composing the four relative errors; cylinders by the residual test; ellipsoids by the residual of the computed quadratic (C103) and the errors of its coefficients |
| C119 | `Rect.hitPlane`, `Sphere.hit`, range of `ray_color` | R (formats without overflow and underflow): the error of the recorded point (C104, C118) against the computed `1000*epsilon`; refuted for `binary32` near the plane by evaluating the roundings |
| C120 | `with_lights.cpp`, `cylinder.cpp`, `render_spheres.cpp`, `ellipsoid.cpp`, `disk.cpp`, `torus_curvature.cpp` (`Model/Programs.lean`), `Render.image` | R for the first four, E for the last two: invariant over rays and generator states by induction on depth, samples and tasks; `Lemmas/NotInf.lean` shows that no root is infinite in exact arithmetic, and a torus hit has a nonzero gradient because the residual test rejects the singular points |
| C121 | `ray_color`, `render_scene`, `to_8bit_rgba`, `diffuse_light` on two or more scenes at once | E for the sum of lights, R for the comparison of bytes: induction on the depth over scenes that share their random numbers (`Lightings`), then over samples and tasks with a relation between colours (`Below`) that also covers overflow to infinity |
| C122 | `render_scene`, `ray_color`, `camera::get_ray`, `hittable_list::hit`, `diffuse_light`, `to_8bit_rgba` together | E: the sum of the samples stays between multiples of the extremes (induction on the samples), then over tasks and stores (C83); `Sees` says independently of the model what is seen along a ray, C106 gives the nearest surface |
| C123 | `lambertian::scatter`, `ray_color` | E, refuted: C74 places the direction in a half ball around the normal; a little geometry bounds the angle, an integral gives the share that Lambert's law demands (`lambertShare`), and a scene of a floor and a lamp shows the effect |
| C124 | `ray_color`, `render_scene`, the `hit` functions of the classes with a centre, `aabb::hit`, `bvh_node::hit` | E: every function sees positions only as differences, by cases on the special values; induction over the list, the tree, the depth, the samples and the tasks. `C124_build`: `Bvh.build` by induction on the depth, for a sort that goes by the comparisons only. Refuted for `checker_texture`, which looks at the position, and for the boxes of disks |
| C125 | `bvh_node::bvh_node`, `bvh_node::hit` | any scalar: induction over the nested constructor calls with the two halves of the sorted list; induction over the tree for the calls. Refuted: an object alone in its node is asked twice |
| C126 | `constant_medium::hit` over `sphere::hit`, `torus::hit` | exact arithmetic: Lebesgue measure of the stretch left after clipping, against the two queries of the boundary. Refuted: short chords, rings |
| C127 | `constant_medium::hit` over `sphere::hit`, `ellipsoid::hit` | IEEE rounding to nearest: adding `100*eps` to a number of the format that is at least 256 gives it back, roots are numbers of the format, the same root is found again. Standard arithmetic for entries up to 64 |
| C128 | `metal::scatter`, `dielectric::scatter`, `reflectance`, `sphere::hit` | exact arithmetic: a unit direction is determined by Snell's law and its side; the ball by the chord from the entry point, on which the angles at both ends agree |
| C129 | `hittable_list::add`, `hit`, `ray_color`, `sphere::hit`, `ellipsoid::hit`, `xy_rect::hit` and its variants, `disk::hit` | any rounding: the loop keeps the least of the first hits and its material; the recursion of `ray_color` by induction on the depth. Exact arithmetic: disjoint spheres are never hit at the same parameter |
| C130 | `sphere::hit`, `quadratic_roots`, `first_quadratic_root_in_range` | R (formats without overflow and underflow): forward error of the discriminant and of the two roots, each root clearly out of range or clearly off the surface |
| C131 | `render_scene` threads, `pcg32_random_r`, `lambertian`, `metal`, `diffuse_light`; `with_lights.cpp`, `cylinder.cpp` | A for the interleavings, R for the programs: a machine whose steps are loads and stores; invariants over all schedules; a simulation with the sequential model when threads run one after the other |
| C132 | `expected_residual` of `torus` and `cylinder`, the threshold in `helicoid::hit`, the stopping rule of `newton` and `halley` | E: derivative along a relative perturbation; the greatest value of a linear function on a cube |
| C133 | `refine_hit_point` | E: the step is Newton's step for the quartic along the ray; its error is the square of the old one times a continuous function; clamping to the box brings no point further from a point of the box |
| C134 | `ellipsoid_scene`, `main` of ellipsoid_curvature.cpp | E: the first point of the ellipsoid on such a ray is beside the poles and the ray enters there (Vieta), so the curvature is a number; the scattered ray leaves the ellipsoid and does not meet it again; witness at the pole of frame 90 |
| C135 | `enneper::compute_uvt`, `enneper::hit`, `main` of enneper.cpp | R: the start of the third call has J(0,0) = 1 and J(1,0) = 0, so `solve` is undefined; E: the roots of the quadratic delimit the part of the ray in the ball; the rays of the middle pixel pass within 1/5 of the origin |
| C136 | `ray_color`, `main` of enneper.cpp and helicoid.cpp | R: induction on the depth, rounding a product below L stays below L; E: every defined value of a colour map lies in the unit cube; a ray that sees the lamp |
| C137 | `set_face_normal`, `hit` of all shapes | E: the recorded normal is a positive multiple of the gradient of a defining function, up to the sign chosen by `set_face_normal`; the sign of the derivative along a line decides the side |
| C138 | `mean_curvature`, `principal_curvatures`, records of sphere, ellipsoid, cylinder, torus | E: the recorded forms of C49, C53, C58, C66 put into the formula of hittable.hpp; the roots of the characteristic polynomial; refutation by the torus |
| C139 | seeds of `render_scene` and `lambertian`, `Render.run`, `sampleLoop`, `Lambertian.scatter` | any arithmetic: induction over the hits, the samples and the tasks; iterates of `advance`. The fixed vector: E |
| C140 | `dielectric::scatter`, `reflectance`, `ray_color`, lists of `xy_rect` | E: C77 with index 1 and the uniqueness of the refracted direction; induction over the depth along a row of panes found by C106 |
| C141 | `Helicoid.clip`, `ubounds`, `vbounds`, `computeTUV`, `hit` | E: roots of a quadratic and convexity of the squared distance from the axis; the miss from `C23_newton2_partial` (the solver stays in the window) and a lower bound for the distance of the window's points from the ray |
| C142 | `Rect.hitPlane`, `HittableList.hit`, `rayColor` | any format: induction on the number of pieces, using only that comparisons are those of a linear order; E: the last of the moments at which a coordinate enters its range; the gap by computing the roundings of 1/107 and its product with 107 in binary32 and binary64 |
| C143 | `Helicoid.levelTUV`, `axialTUV`, `computeTUV`, `clip`, `hit` | E: the argument of a complex number; two lines of a plane; `C141_clip` for the range; evaluation of the residual test for the miss |
| C144 | `Interval.add`, `sub`, `mul`, `abs`, `exp` | any directed rounding by induction from C25 and C30; E for products: the set of products of two intervals is connected and its ends are among the four products |
| C145 | `Sphere.hit`, `Dielectric.scatter` | E, induction on the path: Snell's law and reflection in vector form (C77) conserve the cross product with the normal, which a sphere has along the radius; C46, C47 for the hits |
| C146 | `Rect.hitXY`, `Rect.hitXZ`, `Rect.hitYZ`, `Cuboid.sides`, `Metal.scatter`, `rayColor` | E, induction on the path: C59 for the walls, C76 for the mirrors, C107 for the room; the leak by following one ray through two calls of `ray_color` |
| C147 | `Isotropic.scatter`, `Lambertian.scatter`, `Dielectric.scatter`, `ConstantMedium.hit` | E, measure theory: the standard normal distribution is invariant under isometries, volumes by slices across the normal, C126 and C77 for the sets of random numbers |
| C148 | `Comp.unitVector`, run with a generator that hands out the numbers of a list | `C148_fair` holds in every arithmetic: induction on the number of bodies, the first triple decides or the others do. `C148_ends` is the probability that no triple is kept. `C148_kept` compares the points kept with the ball by the volume of small cubes at the points, `C148_quick` follows. `C148_points`: any two points are equally probable. `C148_opposite_false`: opposite points are not. |
| C149 | `Sphere.hit`, `Disk.hit`, `Metal.scatter`, `Dielectric.scatter`, `rayColor`, `Camera.make`, `Render.image` | A relation between the hits of corresponding rays (`Turned`, `MatTurned`) is kept by the loop over the objects and by induction on the depth (`C149_ray`). The camera turns because the cross product does (`camera_turned`); a mirror image changes its sign, hence `1 - x` in `C149_mirror`. `C149_image` is the picture. `C149_matt_false`: after a half turn about the normal the first bounce is where it was. |
| C150 | `Sphere.hit`, `Ellipsoid.hit`, `Disk.hit`, `Rect.hitPlane`, `quadraticRoots`, all materials, `rayColor`, `Camera.make`, `Render.image` | `Scales F k`: multiplication by `k` commutes with rounding (`scales_unbounded`, `scales_exact0`); then it commutes with every operation, by cases on the special values, and the roots of a quadratic scale. A relation between hits is kept by the loop over the objects and by induction on the depth. `SameAfter` says that the fixed offset of `ray_color` makes no difference. `C150_small_false`: a lamp of radius less than `1000*eps/3` seen from twice its radius is not seen. `C150_cylinder`: `Cylinder.hit`, for records that correspond before the call, and `C150_list_with_cylinders`: the loop over the objects keeps the correspondence of the temporary record, hit or missed; `C150_cylinder_false`: not for unrelated records (from C65). `C150_box`, `C150_tree`: `AABB.hit`, and `Bvh.hit` by induction on the tree; `C150_build`: `Bvh.build` by induction on the depth, for a sort that goes by the comparisons only (`SortsAlike`). `C150_rect_box_false`: the boxes of rectangles are not the same boxes. |
| C151 | `RenderSpheres.objects`, `addCell`, `cells`, `smallMaterial`, `smallSphere` | `InRandomScene` and `SmallMaterial` say in real numbers what belongs into the scene. The loops are shown to yield a list of pairs, by induction on the cells. At most the four cells around the metal ball lose their ball. Seen from above: `C106_scene` with a ray straight down. |
| C152 | `EllipsoidProgram.boundary`, `objects`, `scene`, `Camera.getRay`, `ConstantMedium.hit` | The ellipsoid lies between its tangent planes (Cauchy-Schwarz) across the four sides of the pyramid of `C108_visible`; the tangent of 20 degrees is bounded below by pi/9. The share of the light is `C147_medium` for the boundary, which finds the nearest point by `C51_nearest_partial`. |
| C153 | `HelicoidProgram.surface`, `camera`, `objects`, `glass`, `Helicoid.eval`, `Camera.getRay` | The enclosure by the parametrization. The glass is `C140_straight_partial` for the material of the program. The picture: `C108_visible` for the camera of the program, with bounds for the tangent of 20 degrees. `C153_cut_false`: 1.5 is more than 4 tan 20°. |
| C154 | `Camera.make`, `Camera.getRay`, `TorusProgram.scene`, `DiskProgram.scene`, `WithLights.scene` | `C108_visible` gives the pyramid; the distance of a point to its sides is a scalar product with a unit vector (Cauchy-Schwarz); conversely the point of the ball nearest to the upper side is in the picture only if the bound holds. The programs by numerical bounds for sines and roots. |
| C155 | `RandomHittable.ofMedium`, `ConstantMedium.hit`, `EllipsoidProgram.objects` | Induction over the queries shows that query `i` uses number `i`. The event is then a box, and its volume the product of the lengths of C147. |
| C156 | `Ko.step`, `Ko.form`, `Ko.choose`, `Ko.loop`, `koMethod` | In the frame of tangent and normal the section of the surface by the plane of the ray is a parabola, and the quadratic equation of the code is the intersection of the ray with that parabola. The choice between the two roots is by cases on the bounds; the second body accepts the point because its distance to the ray is zero. |
| C157 | `Helicoid.hit`, `Helicoid.condition`, `Helicoid.fullJac`, `Mat.inverseVal3`, `Mat.maxNorm` | The matrix of the code is that of the derivative of surface point minus ray point; its inverse maps velocities of the target to velocities of the parameters, and a column of the inverse is the answer to a movement along an axis. |
| C158 | `Interval.width`, `Interval.add`, `Interval.sub`, `Interval.mul`, `Interval.abs`, `Interval.exp` | Width as the greatest element of the set of distances; monotone by cases on infinite ends; convergence by induction on the expression, through the set of values with every occurrence varying by itself. |
| C159 | `bisectBackup`, `newton1`, `halley1` | E: intermediate value theorem on the cell that C19 locates; loop invariant that NaN enters through the fallback alone; refutation by a cubic whose critical point is where the fallback lands |
| C160 | `CylinderProgram.scene`, `objects`, `Cylinder.hit`, `Lambertian.scatter`, `Camera.getRay`, `rayColor` | E: the frame by `C108_visible` for the camera of the program, with bounds for the tangent of 20 degrees. The black points: `C65_outside_partial` for the ray from the camera and for the scattered ray, `C74_scatter` for its direction; the cone of 45 degrees does not reach the lamp. |

Concrete formats: `Scalar/IEEE.lean` builds round-to-nearest formats `ieee p emin emax` with overflow, among them `binary32` and `binary64`, and proves that they satisfy the law class `Fmt.Rounding`.
They are the witnesses for refutations that depend on rounding (C26, C36), and they show that the "any F" theorems apply to the real formats.

## 7. Disagreements between code and properties

Each row is proved; the theorem exhibits the witness or covers a whole class of inputs.
The remaining theorems of the same property say what does hold.

| theorem | what the code does |
|---------|--------------------|
| `C05_nan_hidden_false` | `max_norm` hides a NaN that is not the first component; such a vector can pass a convergence test. |
| `C09_window_false` | The 2x2 `solve` treats a lower left entry of size at most `eps^2` as zero and returns a vector that does not solve the system. |
| `C10_identity_false` | The 3x3 `solve` reads elements it never wrote; with the identity matrix nothing is defined. |
| `C10_pivot_false` | The 3x3 `solve` divides by a zero pivot for some invertible matrices. |
| `C11_oob_false`, `C11_rect_false` | Tensor contraction uses the wrong stride: it reads outside the array when `cols > rows`, and reads the wrong entries when `rows > cols`. |
| `C12_window_false`, `C12_zero_polynomial_false` | Coefficients below `numeric_limits::min` are treated as zero; the zero polynomial gives NaN because the branch for it is dead. |
| `C16_double_root_false` | `cubic_roots` misses a root whenever there is a double root and the constant term is not zero. |
| `C17_missed_false`, `C18_unsorted_false` | `quartic_roots` with zero constant term appends 0 at the end and inherits the missing double root. |
| `C19_bracket_false`, `C19_overshoot_false` | `bisect` multiplies `f_min` by itself, so the bracket is wrong; the scan leaves the given range. |
| `C20_nan_false` | The one-dimensional Newton search accepts a point at which the derivative is NaN. |
| `C22_restarts_false` | Random restarts after failed backtracking are not counted. |
| `C23_identity_false`, `C23_window_false` | The n-dimensional Newton search inherits the defects of `solve` and can leave its bounds. |
| `C25_self_subtract_false` | `x -= x` reads an end it has just overwritten. |
| `C26_rounding_false` | Interval `operator*` is not rounded outward. |
| `C27_straddle_false`, `C27_zero_upper_false` | Interval division keeps only one half of the quotients when the divisor contains zero. |
| `C28_mixed_sign_false` | Even powers of an interval of mixed sign ignore the negative end. |
| `C29_hull_false`, `C29_disjoint_not_empty_false` | `hull` takes the minimum of the upper ends; an empty intersection is not reported as `empty()`. |
| `C30_negative_lower_false` | `log` and `sqrt` of an interval with a negative lower end contain nothing. |
| `C32_nan_false` | `bounds::contains(vec)` accepts NaN. |
| `C33_above_false`, `C33_inside_rejected_false` | `bounds::contains(x,y[,z])` compares with the wrong interval ends. |
| `C34_degenerate_false`, `C34_inverted_false` | `bounds::empty` calls a degenerate box empty, and a box with two inverted sides not empty. |
| `C36_float_false` | `pcg_real_01` in `float` can return 1. |
| `C38_window_false` | Principal curvatures of a very large sphere are NaN. |
| `C44_dirty_miss_false` | `bvh_node::hit` passes the caller's record to both children; a child that writes on a miss corrupts the answer. |
| `C44_coplanar_false` | A ray within the plane of a rectangle is a hit with parameter NaN of the tree over it, and a miss of the list. |
| `C45_empty_false` | Building a `bvh_node` over an empty list never ends. |
| `C46_window_false`, `C51_window_false` | For a direction whose squared length is below `numeric_limits::min` the sphere and the ellipsoid report a point that is not on the surface. |
| `C53_pole_false` | The ellipsoid's recorded curvature is NaN at the poles. |
| `C56_ghost_false` | A ray through the hole of a torus that misses it by about the smallest normal number is reported to hit it. |
| `C57_negative_false`, `C57_tangent_false` | The torus misses hits at negative parameters, and tangent hits. |
| `C59_coplanar_false` | A ray inside the plane of a rectangle is a hit with parameter NaN. |
| `C60_eval_false` | `operator()` of the rectangles returns NaN. |
| `C63_box_iff_false` | The disk's box ignores the normal and the first two coordinates of the centre. |
| `C64_stale_false`, `C64_tangent_false`, `C65_inside_false` | On the far wall the cylinder reports the parameter and point left in the record by an earlier object and does not check the height. |
| `C67_second_false` | The mixed second derivatives of the helicoid lack the factor `radius_`. |
| `C68_curvature_false`, `C68_bounds_false` | The helicoid's recorded `G` is `4 pi^2` times the true one; the advertised bounds do not enclose the true curvature. |
| `C69_axial_false` | For rays parallel to the axis the helicoid does not compare the parameter with the range. |
| `C79_dielectric_false` | A dielectric given an emission texture emits and scatters. |
| `C84_schedule_false` | The threads share one generator, so the image depends on the schedule. |
| `C85_one_pixel_false` | Images one pixel wide or high divide by zero. |
| `C86_constant_false`, `C86_undefined_false` | If all pixel times are equal, the cost image is undefined. |
| `C88_negative_false` | A negative or NaN channel makes the byte conversion undefined. |
| `C88_alpha_false` | The overload for four channels (which nothing calls) takes the square root of the opacity too. |
| `C91_degenerate_false` | The pixel map is undefined for a window beginning at 0 and for one-pixel images. |
| `C93_cylinder_false`, `C93_torus_false`, `C93_helicoid_false` | These surfaces overwrite the caller's record on a miss. |
| `C95_helicoid_false` | A helicoid search in an inverted range fails an assertion. |
| `C105_sphere_false`, `C105_pole_false` | The curvature picture of an ellipsoid is undefined if all semi-axes are equal and at the poles. |
| `C111_ellipsoid_false` | ellipsoid.cpp renders 2880 by 1800 pixels with a camera of aspect ratio 1: the picture is stretched. |
| `C112_overlap_false` | In render_spheres.cpp small spheres can overlap the glass sphere and each other. |
| `C107_along_false` | A ray that starts on a side of a `box` and runs along it is not found where it starts. |
| `C119_rect_false` | In single precision a ray scattered from a square at height 3, at a slope of 1 to 1024, hits the square again. |
| `C123_cosine_false`, `C123_wall_false` | `lambertian` never scatters at more than 45 degrees from the normal, because it adds a vector of the half ball instead of one of the sphere; a lamp at a larger angle does not light the surface. |
| `C97_zero_false` | The fractal's Newton search from the origin never ends. |
| `C98_seam_false` | The colour map is torn at the root 1. |
| `C99_halley_false` | `complex_halley` accepts points arbitrarily far from any root. |
| `C124_checker_false` | `checker_texture` is fixed in space, not to the object: a checkered object that is moved by pi/10 shows the other colour at every point. |
| `C124_disk_box_false` | `disk::bounding_box` leaves out the first two coordinates of the centre: a disk moved sideways keeps its box |
| `C125_twice_false` | A `bvh_node` over a single object stores it as both children, so every query that reaches the node asks the object twice; this happens in every tree over three objects. |
| `C126_thin_false` | A unit ball of fog is not seen by rays whose direction vector is long, because the second crossing is looked for only from `100*eps` after the first. |
| `C126_ring_false`, `C126_hole_false` | A torus of fog scatters only on the first of its two sides; from inside the hole it does not scatter at all, because both crossings taken are behind. |
| `C127_far_false` | In `float` and `double` a medium whose boundary a ray enters at a parameter of 256 or more never scatters: `rec1.t + 100*epsilon` is `rec1.t`. The scenes are several hundred units across. |
| `C128_probability_false` | The chance that glass mirrors a ray is not the same both ways along a path: `reflectance` uses the cosine on the incoming side also when the ray leaves the glass, where Schlick's formula needs the one outside. |
| `C129_curvature_false` | The curvature of a hit on a rectangle depends on the order of `add`: rectangles do not write the fundamental forms and `temp_rec` is shared, so a ball added earlier leaves its curvature on a flat wall. |
| `C129_tie_false` | Of objects in the same place, the one that was added first is seen. |
| `C130_rim` | In `float` a sphere of radius 1.5 at a distance of 4096 has holes: a ray that passes 0.8 percent inside the rim is reported as a miss. |
| `C131_lost` | Two threads that load the shared generator before either stores it draw the same number, and the generator advances once instead of twice. |
| `C134_pole_false` | frame 90 of ellipsoid_curvature.cpp looks at a pole of the ellipsoid; there the curvature is `0/0` and `viridis` converts a value that is not a number to an index |
| `C135_never_false`, `C135_ball_false`, `C135_program_false` | `enneper::hit` reads an indeterminate value for every ray that meets its ball, because the third start of Newton's method is u = v = 0, where `matrix::solve` skips a row that it reads later |
| `C138_torus_false` | the torus records its curvatures for the outward normal, the other shapes for the inward one, so `mean_curvature()` is negative on the outer half of a torus and positive on a sphere |
| `C139_twins_false`, `C139_sampler_false`, `C139_first_false` | `render_scene` and every `lambertian` seed their generators with 1235123 and 234121, so that places in pixels and scattered directions are the same numbers |
| `C140_mirror_false` | glass of the index of air mirrors part of the light, because Schlick's formula tends to 1 at grazing angles for every index |
| `C140_eight_false` | eight clear panes in a row are black, as `max_depth` is 8 |
| `C141_miss_false` | helicoid.hpp:230-233 takes the smaller of two distances as the upper bound, so that intersections further from the axis than the start of the clipped range are missed |
| `C142_edge_false` | aarect.hpp:101-111, 120-130, 138-148 test the rounded coordinates against the sharp ends of the rectangle, so a ray through the common edge of two perpendicular rectangles can miss both |
| `C143_seam_false` | helicoid.hpp:318-322: a point with angle 0 lies on the surface for u = 0 and for u = 1, and only u = 0 is considered |
| `C143_ruling_false` | helicoid.hpp:265 computes where a ray along a line of the surface enters it as if the radius were 1 |
| `C144_product_false` | interval.hpp `operator*` does not change the rounding mode, unlike `operator+` and `operator-` |
| `C146_leak_false` | `ray_color` skips hits before the ray parameter `1000*eps`. A ray mirrored closer than that to an edge of a closed mirror room passes through the other wall, and the background is seen from inside (ray_color.hpp:15) |
| `C148_opposite_false` | the draws are `2k/2^32 - 1`, so that -1 is drawn and 1 is not |
| `C149_matt_false` | a matt surface draws its directions in the axes of space, so that for a given generator they do not turn with the scene |
| `C150_small_false` | `ray_color` skips hits before the parameter `1000*eps` in whatever unit the scene is given: a scene of the size of `1000*eps` is not seen |
| `C150_cylinder_false` | whether `cylinder::hit` reports a hit may depend on the record it was given, so no object stands for it in another unit |
| `C150_rect_box_false` | the bounding boxes of the rectangles are thickened by `sqrt(eps)/100` in whatever unit the scene is given |
| `C153_cut_false` | The camera of `helicoid.cpp` is too near: the upper and lower ends of the helicoid are not in the picture |
| `C157_norm_false` | The condition number uses the largest entry of the inverse instead of its operator norm; the parameters can move faster than it says, by a factor of at most three |
| `C158_rounded_false` | `width()` does not switch the rounding mode as the other functions do; in single precision two members can be farther apart than the width |
| `C159_zero_false` | the fallback of `newton` always lands at the right end of a scanned cell; on a cubic with a critical point there `newton` returns a point that is not near to a zero in residual |
| `C160_rims_false`, `C160_dark_false` | The camera of `cylinder.cpp` is too near, both rims are cut off. Points of the wall with x at most 0.9 are black for all random numbers although the lamp is in sight from some of them |

Observed while reading, outside the theorems:

* `std::sort` in the bvh construction assumes boxes without NaN.
* `fesetround` is used without `#pragma STDC FENV_ACCESS`.
* The n-D `newton` takes its bounds by reference and advances their mutable generator; `halley` takes a copy.
* `ko_method`, `interval.hpp` and `newton_fractal.cpp` call unqualified `abs` on floating-point values.
* `samples_per_pixel = 0` divides by zero.
* `isotropic` draws a normal vector without rejection; three zero draws give NaN.
* A density of `-0.0` gives a medium hit at parameter `-inf`.
* A negative sphere radius gives an inverted box.
