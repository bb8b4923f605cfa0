{"id": "C01", "title": "Vector operators form a vector space and dot is an inner product", "statement": "For vec<Real,n>, +, binary -, scalar * and / act componentwise, dot is symmetric, bilinear and positive definite, squared_norm(v) equals dot(v,v) and norm(v) is its square root, for every dimension n.", "quantifier": "every dimension n, all finite vectors and scalars, exact arithmetic", "why_tests_cant": "The laws range over all dimensions and all real inputs; a test samples a few 3-vectors.", "anchors": ["include/drt/vec.hpp: operator+,-,*,/, dot, squared_norm, norm"]}
{"id": "C02", "title": "normalize gives a unit vector in the same direction or poisons every component", "statement": "After normalize(v) on a nonzero finite vector the squared norm is exactly 1 and v is the original scaled by a positive factor; on the zero vector every component becomes NaN rather than a plausible direction.", "quantifier": "every dimension, every finite vector including zero", "why_tests_cant": "Holds for a continuum of vectors; tests use random samples and never the zero vector.", "anchors": ["include/drt/vec.hpp: normalize, operator/="]}
{"id": "C03", "title": "cross product is the oriented perpendicular", "statement": "cross(a,b) is orthogonal to a and to b, anticommutes, and has squared length |a|^2|b|^2-(a.b)^2, so it vanishes exactly for parallel vectors; the helper difference_of_products(a,b,c,d) used for each component equals ab-cd.", "quantifier": "all finite 3-vectors, exact arithmetic", "why_tests_cant": "Polynomial identities over all inputs.", "anchors": ["include/drt/vec.hpp: cross", "include/drt/math.hpp: difference_of_products"]}
{"id": "C04", "title": "reflect is an isometric involution that flips the normal component", "statement": "For a unit normal n, reflect(v,n) has the length of v, reflect(reflect(v,n),n)=v, the component along n changes sign and the tangential component is untouched.", "quantifier": "every dimension, all v, all unit n", "why_tests_cant": "Ranges over all vectors and all unit normals.", "anchors": ["include/drt/vec.hpp: reflect"]}
{"id": "C05", "title": "max_norm is the sup norm, and a NaN component is never hidden", "statement": "max_norm(v) equals the largest absolute component for every finite vector of positive dimension, and a vector with a NaN component never has a max_norm that passes a `<= bound` convergence test.", "quantifier": "every dimension, all vectors including those with NaN components", "why_tests_cant": "Needs all positions of a NaN and all dimensions.", "anchors": ["include/drt/vec.hpp: max_norm", "include/drt/matrix.hpp: max_norm"]}
{"id": "C06", "title": "determinant agrees with the mathematical determinant", "statement": "determinant(M) for 2x2 and 3x3 equals the Leibniz determinant, hence is multiplicative with operator*, and is zero exactly when some nonzero vector is mapped to zero.", "quantifier": "all 2x2 and 3x3 real matrices", "why_tests_cant": "Polynomial identity and linear-dependence equivalence over all matrices.", "anchors": ["include/drt/matrix.hpp: determinant, operator*"]}
{"id": "C07", "title": "inverse succeeds exactly for matrices above the threshold and is then two-sided", "statement": "The bool-returning inverse returns true iff |det| > numeric_limits::min(), and then M*Minv = Minv*M = I; when it returns false the output argument is left as it was, so the value-returning overload then yields an indeterminate matrix.", "quantifier": "all 2x2 and 3x3 real matrices, all prior contents of the output", "why_tests_cant": "Quantifies over all matrices and over garbage in the output argument.", "anchors": ["include/drt/matrix.hpp: inverse"]}
{"id": "C08", "title": "matrix products compose and indexing is a bijection onto storage", "statement": "(A*B)*v = A*(B*v), operator() maps the rows*cols index pairs one-to-one into the storage array without leaving it, and column(j) reads exactly the entries M(i,j).", "quantifier": "all shapes, all indices, all entries", "why_tests_cant": "All shapes and indices.", "anchors": ["include/drt/matrix.hpp: operator(), operator*, column"]}
{"id": "C09", "title": "2x2 solve returns the solution of Mx=b for every invertible M", "statement": "M.solve(b) on an invertible 2x2 matrix returns x with Mx=b.", "quantifier": "all invertible 2x2 matrices and right-hand sides", "why_tests_cant": "Case analysis over vanishing or tiny pivots; random tests essentially never meet them.", "anchors": ["include/drt/matrix.hpp: solve (2x2)"]}
{"id": "C10", "title": "3x3 solve returns the solution of Mx=b for every invertible M", "statement": "M.solve(b) on an invertible 3x3 matrix returns x with Mx=b and never reads an element it has not written.", "quantifier": "all invertible 3x3 matrices, including those with zero entries, and all right-hand sides", "why_tests_cant": "The failing cases have measure zero (exact zero entries); dense random tests never meet them.", "anchors": ["include/drt/matrix.hpp: solve (3x3)"]}
{"id": "C11", "title": "tensor contraction computes the bilinear form and stays inside its storage", "statement": "T(x,y)_i = sum_jk T(i,j,k) x_j y_k for every shape, and no element outside the storage array is read.", "quantifier": "all shapes panels x rows x cols and all entries", "why_tests_cant": "All shapes; the library only instantiates square panels.", "anchors": ["include/drt/tensor.hpp: operator()"]}
{"id": "C12", "title": "quadratic_roots returns exactly the real roots, sorted", "statement": "quadratic_roots(a,b,c) returns either no values or two values in nondecreasing order, and the returned values are exactly the real solutions of ax^2+bx+c=0 (a double root listed twice, the linear case listing its root twice, and the no-solution case listing none).", "quantifier": "all finite a,b,c including zero leading coefficients", "why_tests_cant": "Completeness is a claim about every real number being or not being a root.", "anchors": ["include/drt/roots.hpp: quadratic_roots"]}
{"id": "C13", "title": "quadratic_roots has size 0 or 2 and is ordered under every rounding", "statement": "Whatever the rounding of the individual operations, the result has length 0 or 2 and, when neither value is NaN, the first is not greater than the second; callers index roots[1] after only checking for emptiness.", "quantifier": "all floating-point inputs including NaN and infinities, every rounding behaviour", "why_tests_cant": "All bit patterns and all rounding behaviours.", "anchors": ["include/drt/roots.hpp: quadratic_roots", "include/drt/cylinder.hpp: hit"]}
{"id": "C14", "title": "first_quadratic_root_in_range returns the least root in the closed range or nothing", "statement": "The result is empty iff no real root lies in [t_min,t_max], and otherwise is the smallest root in that range; under any rounding a returned value is a non-NaN number inside the range.", "quantifier": "all coefficients and all ranges including infinite ends", "why_tests_cant": "Quantifies over all coefficient/range combinations.", "anchors": ["include/drt/roots.hpp: first_quadratic_root_in_range"]}
{"id": "C15", "title": "discriminant equals b^2-4ac", "statement": "discriminant(a,b,c), computed with a fused compensated product, equals b^2-4ac so its sign decides the number of real roots.", "quantifier": "all finite a,b,c", "why_tests_cant": "Identity over all reals.", "anchors": ["include/drt/roots.hpp: discriminant"]}
{"id": "C16", "title": "cubic_roots returns exactly the real roots in increasing order", "statement": "For ax^3+bx^2+cx+d with a not negligible the returned values are exactly the real roots, each listed at least once, in nondecreasing order.", "quantifier": "all finite coefficients", "why_tests_cant": "Completeness over all reals, with degenerate (repeated-root) strata of measure zero.", "anchors": ["include/drt/roots.hpp: cubic_roots"]}
{"id": "C17", "title": "quartic_roots returns only real roots and misses none", "statement": "Every returned value is a root of ax^4+bx^3+cx^2+dx+e, and every real root is returned.", "quantifier": "all finite coefficients with a not negligible", "why_tests_cant": "Soundness and completeness over all reals, through five algorithm branches.", "anchors": ["include/drt/roots.hpp: quartic_roots"]}
{"id": "C18", "title": "quartic_roots result is sorted so the first in-range element is the nearest", "statement": "The vector returned by quartic_roots is in nondecreasing order; torus intersection picks the first element in range and treats it as the nearest.", "quantifier": "all finite coefficients", "why_tests_cant": "Order over all inputs including zero constant term.", "anchors": ["include/drt/roots.hpp: quartic_roots", "include/drt/torus.hpp: hit"]}
{"id": "C19", "title": "bisect returns a bracket inside the given range that still contains a sign change", "statement": "If bisect(f,t0,t1) returns a non-NaN pair then the pair is an ordered sub-bracket and f changes sign on it; it returns NaNs if no sign change is found.", "quantifier": "all functions f and all ranges", "why_tests_cant": "Quantifies over all functions.", "anchors": ["include/drt/roots.hpp: bisect"]}
{"id": "C20", "title": "1-D newton and halley return a point that passed the residual test or came from the bisection fallback", "statement": "A non-NaN result of newton(f,tmin,tmax) is a point at which |f| is within the relative residual tolerance, or a zero, or a midpoint produced by the bisection fallback.", "quantifier": "all functions and ranges, all numbers of iterations", "why_tests_cant": "Quantifies over all functions and iteration histories.", "anchors": ["include/drt/newton.hpp: newton (1D), bisect_backup", "include/drt/halley.hpp: halley (1D)"]}
{"id": "C21", "title": "n-D newton returns NaNs or a point passing its residual test", "statement": "If newton(f,bound,guess) returns a vector that is not all NaN then at that vector the residual max-norm is at most the expected residual last computed.", "quantifier": "all functions f, bounds, initial guesses, iteration limits and random states", "why_tests_cant": "Quantifies over all functions and histories of random restarts.", "anchors": ["include/drt/newton.hpp: newton (n-D)"]}
{"id": "C22", "title": "n-D newton and halley always terminate within the iteration limit and the restart budget", "statement": "newton performs at most max(1,max_iterations) loop bodies and at most 7 random restarts before giving up, halley the same with its own limits, whatever f does.", "quantifier": "all functions f, all limits", "why_tests_cant": "Termination for every function.", "anchors": ["include/drt/newton.hpp: newton (n-D)", "include/drt/halley.hpp: halley (n-D)"]}
{"id": "C23", "title": "n-D newton never leaves the bounds it was given", "statement": "If the initial guess is inside bound, every component of the returned vector lies inside bound or is NaN, and the internal assertions never fire.", "quantifier": "all functions with consistent Jacobians, all bounds, all random states", "why_tests_cant": "All iteration histories, including backtracking.", "anchors": ["include/drt/newton.hpp: newton (n-D)", "include/drt/bounds.hpp: contains, random"]}
{"id": "C24", "title": "ko_method returns NaNs or a parameter point on the ray within the t range", "statement": "A non-NaN result (u,v,t) of ko_method satisfies |(P-o) x d|^2 < 4 eps^2 for the surface point P at (u,v) and t lies in the third bound; at most 50 iterations are made.", "quantifier": "all surfaces, rays, bounds, random states", "why_tests_cant": "Quantifies over all surfaces and histories.", "anchors": ["include/drt/ko_method.hpp: ko_method"]}
{"id": "C25", "title": "interval addition and subtraction contain every pointwise result under directed rounding", "statement": "If x in X and y in Y then x+y in X+Y and x-y in X-Y when the endpoint computations are rounded downwards and upwards respectively, and the floating-point rounding mode after the call is the one before it.", "quantifier": "all intervals, all member points, all directed rounding functions, all initial rounding modes", "why_tests_cant": "Containment for all points under all roundings; unit tests use exactly representable endpoints.", "anchors": ["include/drt/interval.hpp: operator+, operator-, operator-="]}
{"id": "C26", "title": "interval multiplication contains every pointwise product", "statement": "If x in X and y in Y then xy in X*Y.", "quantifier": "all finite intervals and all member points", "why_tests_cant": "Containment over all points and sign combinations.", "anchors": ["include/drt/interval.hpp: operator*"]}
{"id": "C27", "title": "interval division contains every pointwise quotient", "statement": "If x in X, y in Y and y is not zero then x/y in X/Y.", "quantifier": "all intervals including divisors touching or straddling zero", "why_tests_cant": "Containment over all points, including the zero-touching cases.", "anchors": ["include/drt/interval.hpp: operator/"]}
{"id": "C28", "title": "interval power contains every pointwise power", "statement": "If x in X then x^p in pow(X,p) for every positive integer p.", "quantifier": "all intervals, all member points, all exponents", "why_tests_cant": "All exponents and sign configurations.", "anchors": ["include/drt/interval.hpp: pow"]}
{"id": "C29", "title": "interval intersection, hull and emptiness are the set operations", "statement": "intersection(X,Y) contains z iff both X and Y do (and reports empty() when they are disjoint), hull(X,Y) contains both X and Y.", "quantifier": "all intervals", "why_tests_cant": "Set-level equivalence over all points.", "anchors": ["include/drt/interval.hpp: intersection, hull, empty"]}
{"id": "C30", "title": "interval exp, log, sqrt and abs contain every pointwise image", "statement": "If x in X (and in the domain) then exp x, log x, sqrt x and |x| lie in exp(X), log(X), sqrt(X), abs(X).", "quantifier": "all intervals and member points", "why_tests_cant": "Containment over all points.", "anchors": ["include/drt/interval.hpp: exp, log, sqrt, abs"]}
{"id": "C31", "title": "interval comparison is conservative and distance is a metric", "statement": "X >= Y true means every x in X is at least every y in Y; distance is symmetric, zero only for equal intervals and satisfies the triangle inequality.", "quantifier": "all intervals", "why_tests_cant": "Universal over points and triples of intervals.", "anchors": ["include/drt/interval.hpp: operator>=, distance, width, degenerate"]}
{"id": "C32", "title": "bounds::contains(vec) decides membership in the closed box", "statement": "contains(v) for a NaN-free v is true iff every component lies in its closed interval; a vector with a NaN component is never reported as inside.", "quantifier": "every dimension, all bounds, all vectors including NaN", "why_tests_cant": "All dimensions and special values.", "anchors": ["include/drt/bounds.hpp: contains(vec)"]}
{"id": "C33", "title": "bounds::contains(x,y) and contains(x,y,z) decide membership in the closed box", "statement": "The scalar overloads agree with the vector overload for every point.", "quantifier": "all bounds and points", "why_tests_cant": "All points; the tests sample points where the defect is invisible.", "anchors": ["include/drt/bounds.hpp: contains(x,y), contains(x,y,z)"]}
{"id": "C34", "title": "bounds::random and center stay inside, volume and empty agree", "statement": "For ordered finite bounds random() and center() return points that contains() accepts, volume() is the product of the side lengths, and empty() is true iff no point is contained.", "quantifier": "every dimension, all bounds, all generator states", "why_tests_cant": "All generator states.", "anchors": ["include/drt/bounds.hpp: random, center, volume, empty"]}
{"id": "C35", "title": "pcg generator has full period for every stream", "statement": "For every initial state and every stream constant the internal state returns to its start after exactly 2^64 draws and visits every state; equal seeds give equal sequences.", "quantifier": "all 2^128 seed/stream pairs", "why_tests_cant": "2^64 steps cannot be run.", "anchors": ["include/drt/pcg.hpp: pcg32_random_r"]}
{"id": "C36", "title": "pcg_real_01 lies in [0,1)", "statement": "Every value returned by pcg_real_01 is at least 0 and strictly less than 1.", "quantifier": "every generator state, both float and double", "why_tests_cant": "All generator states; the float failure occurs with probability 2^-25.", "anchors": ["include/drt/pcg.hpp: pcg_real_01"]}
{"id": "C37", "title": "set_face_normal orients the normal against the ray", "statement": "After set_face_normal(r,n) the stored normal has nonpositive dot product with the ray direction, is n or -n, and front_face is true iff n itself opposes the direction.", "quantifier": "all rays and normals", "why_tests_cant": "All directions including tangential ones.", "anchors": ["include/drt/hittable.hpp: set_face_normal"]}
{"id": "C38", "title": "curvatures reported by a hit record satisfy the shape-operator equations", "statement": "principal_curvatures() returns k1<=k2 with k1+k2=2H and k1k2=K whenever the first form is positive definite; gaussian and mean curvature are those of the recorded forms.", "quantifier": "all records with positive definite first form", "why_tests_cant": "All six coefficients; existence of the roots is itself a theorem.", "anchors": ["include/drt/hittable.hpp: gaussian_curvature, mean_curvature, principal_curvatures"]}
{"id": "C39", "title": "hittable_list::hit returns the nearest hit among all objects", "statement": "hit returns the material of an object with the smallest reported parameter below t_max and fills rec with that object's record; it returns null iff no object reports a hit with parameter below t_max.", "quantifier": "all lists of any length, all object behaviours", "why_tests_cant": "Lists of any length with arbitrary objects.", "anchors": ["include/drt/hittable_list.hpp: hit"]}
{"id": "C40", "title": "hittable_list::hit leaves the record untouched on a miss and never reports NaN", "statement": "If hit returns null the caller's record is unchanged; if it returns a material the record's t is not NaN and lies below t_max even if member objects misbehave.", "quantifier": "all lists, all object behaviours including objects that clobber records or report NaN", "why_tests_cant": "Adversarial objects.", "anchors": ["include/drt/hittable_list.hpp: hit"]}
{"id": "C41", "title": "hittable_list keeps objects and materials aligned through any history of add and clear", "statement": "After any sequence of add and clear the number of materials equals the number of objects and the i-th material is the one added with the i-th surviving object.", "quantifier": "all histories of add/clear", "why_tests_cant": "All histories.", "anchors": ["include/drt/hittable_list.hpp: add, clear"]}
{"id": "C42", "title": "hittable_list::bounding_box is the least box containing all member boxes", "statement": "When every member has a bounding box and the list is nonempty the returned box contains each member's box and is contained in any box that does; otherwise false is returned.", "quantifier": "all lists", "why_tests_cant": "Lists of any length.", "anchors": ["include/drt/hittable_list.hpp: bounding_box", "include/drt/aabb.hpp: surrounding_box"]}
{"id": "C43", "title": "aabb::hit never rejects a ray that passes through the box", "statement": "If the ray meets the box in more than one point within [t_min,t_max], aabb::hit returns true, including for directions with zero components and origins on a face; and it returns true only if the ray meets the box within the range.", "quantifier": "all boxes, rays and ranges, including axis-parallel rays", "why_tests_cant": "Axis-parallel rays on faces produce NaN/infinite slab values.", "anchors": ["include/drt/aabb.hpp: hit"]}
{"id": "C44", "title": "bvh_node gives the same answer as testing every object", "statement": "A bvh built over a nonempty list, whatever axis is drawn at each level and however equal boxes are sorted, reports a hit iff some object reports one, with the smallest parameter, provided the objects' boxes bound their hits.", "quantifier": "all object lists, all random axis choices, all sort tie-breaks", "why_tests_cant": "All tree shapes and random choices.", "anchors": ["include/drt/bvh.hpp: bvh_node, hit"]}
{"id": "C45", "title": "bvh construction terminates for every object list", "statement": "Constructing a bvh_node from any list, including an empty one, terminates.", "quantifier": "all list sizes", "why_tests_cant": "All sizes.", "anchors": ["include/drt/bvh.hpp: bvh_node"]}
{"id": "C46", "title": "sphere::hit finds exactly the nearest intersection in range", "statement": "hit returns true iff the ray meets the sphere at some parameter in [t_min,t_max]; then rec.t is the smallest such parameter and rec.p=r(rec.t) is on the sphere.", "quantifier": "all spheres, rays with nonzero direction, ranges", "why_tests_cant": "Completeness over all rays.", "anchors": ["include/drt/sphere.hpp: hit"]}
{"id": "C47", "title": "sphere record: unit normal facing the ray, and consistent texture coordinates", "statement": "On a hit rec.normal is the unit radial vector up to sign opposing the ray, and evaluating the sphere's parametrization at (rec.u,rec.v) gives back rec.p.", "quantifier": "all hits", "why_tests_cant": "All hit points including poles and the seam.", "anchors": ["include/drt/sphere.hpp: hit, get_uv, operator()(u,v)"]}
{"id": "C48", "title": "sphere Jacobian and Hessian are the true derivatives", "statement": "The J and H overloads of operator() return the first and second partial derivatives of operator()(u,v), with H symmetric in its last two indices.", "quantifier": "all (u,v), all radii and centres", "why_tests_cant": "Derivatives are limits over a continuum.", "anchors": ["include/drt/sphere.hpp: operator()(u,v,J), operator()(u,v,J,H)"]}
{"id": "C49", "title": "sphere fundamental forms are those of its parametrization", "statement": "The E,F,G,e,f,g set on a hit are the first and second fundamental forms of the parametrization (with inward normal) at (rec.u,rec.v), hence gaussian curvature 1/R^2 and mean curvature 1/R away from the poles.", "quantifier": "all hits away from the poles", "why_tests_cant": "All points.", "anchors": ["include/drt/sphere.hpp: set_fundamental_forms"]}
{"id": "C50", "title": "sphere bounding box contains the sphere and is tight", "statement": "bounding_box returns true and the box contains every surface point and touches the surface on all six faces.", "quantifier": "all surface points, all spheres", "why_tests_cant": "All surface points.", "anchors": ["include/drt/sphere.hpp: bounding_box"]}
{"id": "C51", "title": "ellipsoid::hit finds exactly the nearest intersection in range", "statement": "hit returns true iff the ray meets the ellipsoid at some parameter in [t_min,t_max]; then rec.t is the smallest such and rec.p is on the surface.", "quantifier": "all axis-aligned ellipsoids, rays, ranges", "why_tests_cant": "Completeness over all rays.", "anchors": ["include/drt/ellipsoid.hpp: hit"]}
{"id": "C52", "title": "ellipsoid texture coordinates invert the parametrization and the normal is the unit gradient", "statement": "On a hit, operator()(rec.u,rec.v)=rec.p and rec.normal is plus or minus the normalized gradient of the implicit function.", "quantifier": "all hits", "why_tests_cant": "All surface points.", "anchors": ["include/drt/ellipsoid.hpp: get_uv, operator()(u,v), hit"]}
{"id": "C53", "title": "ellipsoid gaussian curvature: both formulas agree and stay within the advertised bounds", "statement": "At every surface point gaussian_curvature(p) equals the curvature from the recorded fundamental forms and lies within gaussian_curvature_bounds().", "quantifier": "all ellipsoids, all surface points", "why_tests_cant": "All points, and extremality.", "anchors": ["include/drt/ellipsoid.hpp: gaussian_curvature, gaussian_curvature_bounds, set_fundamental_forms"]}
{"id": "C54", "title": "ellipsoid bounding box contains the ellipsoid and is tight", "statement": "bounding_box contains every point of the surface and touches it on all six faces.", "quantifier": "all surface points", "why_tests_cant": "All surface points.", "anchors": ["include/drt/ellipsoid.hpp: bounding_box"]}
{"id": "C55", "title": "torus quartic: the coefficients used by hit are those of the implicit function along the ray", "statement": "residual(r(t)) is the quartic polynomial in t whose roots hit() searches.", "quantifier": "all tori, rays and parameters", "why_tests_cant": "Polynomial identity over all inputs.", "anchors": ["include/drt/torus.hpp: hit, residual"]}
{"id": "C56", "title": "torus::hit reports only true intersections in range", "statement": "When hit returns true rec.t is in [t_min,t_max] and rec.p=r(rec.t) lies on the torus.", "quantifier": "all tori, rays, ranges", "why_tests_cant": "All rays.", "anchors": ["include/drt/torus.hpp: hit"]}
{"id": "C57", "title": "torus::hit misses no intersection in range and reports the nearest", "statement": "If the ray meets the torus at a parameter in [t_min,t_max] then hit returns true with the smallest such parameter.", "quantifier": "all tori, rays, and ranges including negative parameters", "why_tests_cant": "All rays and ranges; existing tests use rays that start outside pointing in.", "anchors": ["include/drt/torus.hpp: hit"]}
{"id": "C58", "title": "torus geometry: texture coordinates, normal, curvature and its bounds", "statement": "On the torus get_uv inverts operator()(u,v), normal(p) is the unit gradient, gaussian_curvature(p) equals the curvature of the recorded forms and lies within gaussian_curvature_bounds(), and the bounding box contains every surface point.", "quantifier": "all ring tori (R>r>0), all surface points", "why_tests_cant": "All surface points.", "anchors": ["include/drt/torus.hpp: get_uv, operator()(u,v), normal, gaussian_curvature, gaussian_curvature_bounds, bounding_box"]}
{"id": "C59", "title": "axis-aligned rectangles report exactly the intersection in range", "statement": "hit returns true iff the ray crosses the rectangle (edges included) at a parameter in [t_min,t_max] and then rec.t is that parameter; a ray parallel to the plane never reports a hit.", "quantifier": "all rectangles, rays, ranges", "why_tests_cant": "Parallel and in-plane rays produce NaN/infinite parameters.", "anchors": ["include/drt/aarect.hpp: xy_rect, xz_rect, yz_rect::hit"]}
{"id": "C60", "title": "axis-aligned rectangle records and boxes are consistent", "statement": "On a hit with finite parameter rec.p is on the rectangle, (u,v) are in [0,1] and operator()(u,v) gives back rec.p; the bounding box contains the rectangle and has positive thickness.", "quantifier": "all hits", "why_tests_cant": "All points.", "anchors": ["include/drt/aarect.hpp: hit, operator()(u,v), bounding_box"]}
{"id": "C61", "title": "disk rotation is orthogonal, has determinant 1 and takes the z axis to the normal", "statement": "For every unit normal the constructor builds mutually inverse rotations with to_world e_z = normal.", "quantifier": "all unit normals including (0,0,-1)", "why_tests_cant": "All unit vectors.", "anchors": ["include/drt/disk.hpp: disk constructor"]}
{"id": "C62", "title": "disk::hit reports exactly the crossing of the disk in range", "statement": "hit returns true iff the ray crosses the disk transversally at a parameter in [t_min,t_max]; then rec.p is in the disk and operator()(rec.u,rec.v)=rec.p.", "quantifier": "all disks, rays, ranges", "why_tests_cant": "All rays.", "anchors": ["include/drt/disk.hpp: hit, operator()(u,v)"]}
{"id": "C63", "title": "disk bounding box contains the disk", "statement": "bounding_box contains every point of the disk.", "quantifier": "all disks", "why_tests_cant": "All centres and normals.", "anchors": ["include/drt/disk.hpp: bounding_box"]}
{"id": "C64", "title": "cylinder::hit reports only points of the cylinder at a parameter in range", "statement": "When hit returns true rec.t is in [t_min,t_max], rec.p=r(rec.t), and rec.p lies on the cylinder with z between z_min and z_max, whatever the record held before.", "quantifier": "all cylinders, rays, ranges, prior record contents", "why_tests_cant": "Prior contents of the record and rays starting inside.", "anchors": ["include/drt/cylinder.hpp: hit"]}
{"id": "C65", "title": "cylinder::hit misses no intersection in range", "statement": "If the ray meets the cylinder at a parameter in [t_min,t_max] then hit returns true with the smallest such parameter.", "quantifier": "all cylinders, rays, ranges", "why_tests_cant": "All rays.", "anchors": ["include/drt/cylinder.hpp: hit"]}
{"id": "C66", "title": "cylinder texture coordinates, curvature and bounding box", "statement": "get_uv inverts operator()(u,v) on the cylinder, gaussian curvature of the recorded forms is 0, mean curvature is 1/(2r), and the box contains the surface.", "quantifier": "all points", "why_tests_cant": "All points.", "anchors": ["include/drt/cylinder.hpp: get_uv, operator()(u,v), set_fundamental_forms, bounding_box"]}
{"id": "C67", "title": "helicoid Jacobian and Hessian are the true derivatives", "statement": "The J and H overloads return the first and second partial derivatives of operator()(u,v).", "quantifier": "all (u,v), all radii and speeds", "why_tests_cant": "Derivatives over a continuum; tests use radius 1.", "anchors": ["include/drt/helicoid.hpp: operator()(u,v,J), operator()(u,v,J,H), derivatives"]}
{"id": "C68", "title": "helicoid curvature is that of the surface", "statement": "The gaussian curvature of the recorded forms is the curvature of the parametrized surface, mean curvature is 0, and gaussian_curvature_bounds() encloses it.", "quantifier": "all points, radii, speeds", "why_tests_cant": "All points; the tests restate the code's formula.", "anchors": ["include/drt/helicoid.hpp: hit, gaussian_curvature_bounds"]}
{"id": "C69", "title": "helicoid::hit reports only points of the helicoid in range", "statement": "When hit returns true rec.t is in [t_min,t_max], v in [0,1]-range bounds, and rec.p is within the documented residual of operator()(rec.u,rec.v).", "quantifier": "all rays and ranges", "why_tests_cant": "All rays, including vertical ones.", "anchors": ["include/drt/helicoid.hpp: hit, compute_tuv"]}
{"id": "C70", "title": "enneper Jacobian and Hessian are the true derivatives", "statement": "The J and H overloads return the first and second partial derivatives of operator()(u,v).", "quantifier": "all (u,v)", "why_tests_cant": "Derivatives over a continuum.", "anchors": ["include/drt/enneper.hpp: operator()(u,v,J), operator()(u,v,J,H)"]}
{"id": "C71", "title": "enneper recorded forms are those of the surface and curvature stays within bounds", "statement": "For any (u,v) the values E,F,G,e,f,g written by hit are the fundamental forms of the parametrization, mean curvature 0, gaussian curvature -4/(1+u^2+v^2)^4 within gaussian_curvature_bounds() for |u|,|v|<=2.", "quantifier": "all (u,v)", "why_tests_cant": "All points.", "anchors": ["include/drt/enneper.hpp: hit, gaussian_curvature_bounds"]}
{"id": "C72", "title": "enneper::hit reports a parameter in range and a point close to the surface", "statement": "When hit returns true rec.t is in [t_min,t_max], rec.p=r(rec.t), and rec.p is within 1e-5 of operator()(rec.u,rec.v), and rec.p lies in the ball of the given radius, which bounding_box encloses.", "quantifier": "all rays, ranges, solver outcomes", "why_tests_cant": "All solver outcomes.", "anchors": ["include/drt/enneper.hpp: hit, compute_uvt"]}
{"id": "C73", "title": "constant_medium::hit scatters inside the boundary and inside the range", "statement": "When hit returns true rec.t lies in [t_min,t_max] and between the entry and exit parameters of the boundary; zero density never scatters.", "quantifier": "all boundary objects, rays, ranges, random draws", "why_tests_cant": "All random draws.", "anchors": ["include/drt/constant_medium.hpp: hit"]}
{"id": "C74", "title": "lambertian scattering always leaves on the side of the normal", "statement": "For a unit normal the scattered direction has positive dot product with it and is never the zero vector; attenuation is the texture colour; scatter always returns true.", "quantifier": "all generator states, all unit normals", "why_tests_cant": "All generator states.", "anchors": ["include/drt/lambertian.hpp: scatter"]}
{"id": "C75", "title": "rejection sampling in the unit ball terminates for every generator state", "statement": "The loop drawing three numbers until they fall in the unit ball ends after finitely many draws from every generator state, and the point returned is in the closed unit ball (lambertian: in the hemisphere of the normal).", "quantifier": "all 2^64 generator states", "why_tests_cant": "Termination from every state.", "anchors": ["include/drt/lambertian.hpp: random_in_unit_sphere, random_in_hemisphere", "include/drt/isotropic.hpp: random_in_unit_sphere"]}
{"id": "C76", "title": "metal reflects specularly and never into the surface", "statement": "metal::scatter produces a ray from the hit point whose unit direction mirrors the incoming direction about the normal, and returns true iff the reflected ray leaves on the normal's side, which holds for every non-tangential ray facing the normal.", "quantifier": "all rays and unit normals", "why_tests_cant": "All directions.", "anchors": ["include/drt/metal.hpp: scatter"]}
{"id": "C77", "title": "dielectric refraction obeys Snell's law and total internal reflection", "statement": "If the sine of the refracted angle would exceed 1 the ray is reflected; otherwise a refracted direction has unit length, lies in the plane of incidence, on the far side of the surface, with sin(theta_t)=ratio*sin(theta_i); dielectric::scatter never rejects a ray.", "quantifier": "all unit directions, unit normals, ratios, random draws", "why_tests_cant": "All angles and random draws.", "anchors": ["include/drt/dielectric.hpp: refract, scatter"]}
{"id": "C78", "title": "Schlick reflectance is a probability", "statement": "reflectance(cosine,ref_idx) lies in [r0,1] for cosine in [0,1] and positive index, equals 1 at grazing incidence and r0 at normal incidence and is nonincreasing in cosine.", "quantifier": "all cosines in [0,1], all positive indices", "why_tests_cant": "Continuum.", "anchors": ["include/drt/dielectric.hpp: reflectance"]}
{"id": "C79", "title": "light emission and default materials", "statement": "diffuse_light never scatters and emits its texture colour; other materials emit black; textures return the stored colour and the checker texture returns one of its two textures according to the sign of the product of sines.", "quantifier": "all inputs", "why_tests_cant": "All inputs.", "anchors": ["include/drt/diffuse_light.hpp", "include/drt/material.hpp: emitted", "include/drt/texture.hpp", "include/drt/checker_texture.hpp: value"]}
{"id": "C80", "title": "ray_color terminates, is black at zero depth and bounded by the energy in the scene", "statement": "For every scene and depth limit ray_color makes at most depth scene queries and, if attenuations are in [0,1] and emissions and background in [0,L], returns components in [0, depth*L].", "quantifier": "all scenes, materials, depths, random histories", "why_tests_cant": "All scenes and random histories.", "anchors": ["include/drt/ray_color.hpp: ray_color"]}
{"id": "C81", "title": "ray_color satisfies the furnace test", "statement": "With no emission, attenuation equal to 1 and constant background B every path returns either B or black, and black only when the depth budget is exhausted or a scatter is refused.", "quantifier": "all scenes, depths", "why_tests_cant": "All path histories.", "anchors": ["include/drt/ray_color.hpp: ray_color"]}
{"id": "C82", "title": "camera basis is orthonormal and rays have the documented geometry", "statement": "For non-degenerate look directions the camera's image plane is perpendicular to the viewing direction; get_ray(1/2,1/2) points at the look-at point; the vertical and horizontal extents realise the field of view and aspect ratio.", "quantifier": "all non-degenerate cameras, all (s,t)", "why_tests_cant": "Continuum of cameras.", "anchors": ["include/drt/camera.hpp: camera, get_ray"]}
{"id": "C83", "title": "render writes every pixel exactly once at the right place under every schedule", "statement": "For any image size, 4*W*(H-1-j)+4*i enumerates the pixel slots of the buffer without overlap or overflow, so for any thread schedule each pixel of the output is written exactly once, by its own (i,j) task, with alpha 255.", "quantifier": "all image sizes, all schedules of the parallel loop", "why_tests_cant": "All sizes and schedules.", "anchors": ["include/drt/render_scene.hpp: render_scene"]}
{"id": "C84", "title": "render is reproducible: same seed, same image", "statement": "Rendering a scene twice gives the same image.", "quantifier": "all schedules of the parallel loop", "why_tests_cant": "All interleavings of the shared generator.", "anchors": ["include/drt/render_scene.hpp: render_scene", "include/drt/pcg.hpp"]}
{"id": "C85", "title": "pixel sampling covers the image plane and is defined for every image size", "statement": "The jittered sample coordinates u=(i+x)/(W-1), v=(j+y)/(H-1) are finite for all image sizes and lie in [0, W/(W-1)).", "quantifier": "all sizes, pixels, random draws", "why_tests_cant": "All sizes, including one-pixel-wide images.", "anchors": ["include/drt/render_scene.hpp: render_scene"]}
{"id": "C86", "title": "cost-image normalisation is defined for every image", "statement": "The scalar passed to the colour map for each pixel lies in [0,1].", "quantifier": "all cost buffers, including constant ones", "why_tests_cant": "All buffers.", "anchors": ["include/drt/render_scene.hpp: render_scene"]}
{"id": "C87", "title": "cost-image filename never overwrites the image", "statement": "The name of the cost image differs from the name of the main image for every file name given.", "quantifier": "all strings", "why_tests_cant": "All strings, including short ones.", "anchors": ["include/drt/render_scene.hpp: render_scene"]}
{"id": "C88", "title": "to_8bit_rgba maps every finite non-negative colour to a byte monotonically", "statement": "Each channel is floor(255*sqrt(c)) clipped to 255, monotone in c, 0 at 0 and 255 from 1 on; alpha is 255; the conversion is defined for every colour a renderer can produce.", "quantifier": "all colours including negative and NaN channels", "why_tests_cant": "Continuum and special values.", "anchors": ["include/drt/png.hpp: to_8bit_rgba"]}
{"id": "C89", "title": "colour maps never index outside their tables and return colours in the unit cube", "statement": "For every scalar that is not NaN the seven table-based colour maps read table entries with index at most 255 and return channels in [0,1]; scalars outside [0,1] are clamped.", "quantifier": "all scalars, all seven maps, every nearest rounding of the product 255*s", "why_tests_cant": "All scalars including those adjacent to 1.", "anchors": ["include/drt/color_maps.hpp: plasma, viridis, inferno, black_body, kindlmann, extended_kindlmann, smooth_cool_warm"]}
{"id": "C90", "title": "colour maps interpolate their tables continuously", "statement": "At s=i/255 the map returns the i-th table entry and it is continuous (Lipschitz) in s, with no jump at the segment boundaries or at 1.", "quantifier": "all scalars", "why_tests_cant": "Continuum.", "anchors": ["include/drt/color_maps.hpp"]}
{"id": "C91", "title": "fractal pixel map and its inverse agree", "statement": "In newton_fractal, to_pixel(to_complex(i,j)) returns (i,j) and the image raster is covered without overlap.", "quantifier": "all pixels, image sizes, window bounds", "why_tests_cant": "All sizes.", "anchors": ["src/newton_fractal.cpp: plane_pixel_map"]}
{"id": "C92", "title": "progress bar is defined for every progress value", "statement": "display_progress clamps the bar to its width and prints the percentage for every progress value in [0,1].", "quantifier": "all progress values", "why_tests_cant": "Continuum.", "anchors": ["include/drt/progress_bar.hpp: display_progress"]}
{"id": "C93", "title": "objects that miss leave the caller's record usable by an enclosing search", "statement": "An object whose hit returns false does not change the record passed in, so containers that pass one record through several objects never mix fields of different objects.", "quantifier": "all objects of the library, all rays, all prior records", "why_tests_cant": "All prior record contents.", "anchors": ["include/drt/sphere.hpp, ellipsoid.hpp, torus.hpp, aarect.hpp, disk.hpp, cylinder.hpp: hit", "include/drt/bvh.hpp: hit"]}
{"id": "C94", "title": "pcg outputs are equidistributed", "statement": "Over one full period of draws every 32-bit value is returned equally often (2^32 times), for every seed and every stream; the value is the mixed state word rotated by its top five bits.", "quantifier": "all seeds, all streams, all 2^32 output words", "why_tests_cant": "A period has 2^64 draws.", "anchors": ["include/drt/pcg.hpp: pcg32_random_r"]}
{"id": "C95", "title": "hit never aborts the program", "statement": "For every object of the library, every ray with finite origin and nonzero finite direction, and every range t_min <= t_max, hit returns; no assertion inside it fails.", "quantifier": "all objects, rays and ranges", "why_tests_cant": "The range depends on the hits found so far, and the solvers restart from random points.", "anchors": ["include/drt/helicoid.hpp: hit, compute_tuv", "include/drt/enneper.hpp: hit", "include/drt/newton.hpp: newton"]}
{"id": "C96", "title": "The fractal's functions return a polynomial and its derivatives", "statement": "g(z) returns z^8+15z^4-16 and its complex derivative; fifth_roots(z) returns z^5-1 and its derivative; fifth_roots_halley(z) also returns the second derivative. The eight points that main marks with black discs are exactly the zeros of g.", "quantifier": "for every complex z", "why_tests_cant": "A test evaluates the functions at finitely many points; a wrong coefficient in a derivative only slows Newton's method down and would show as a different picture.", "anchors": ["src/newton_fractal.cpp:10-35", "src/newton_fractal.cpp:126-134"]}
{"id": "C97", "title": "complex_newton returns zeros", "statement": "If complex_newton(f, z) returns, and f computes a polynomial p of degree d and its derivative, then the value returned is within 7/5 (d+1) machine epsilons, relative to its own size, of a zero of p; for g the zero is one of the eight marked roots. The loop returns from every starting point from which Newton's method converges to a nonzero simple zero, and in particular the program ends.", "quantifier": "for every polynomial, every starting point and every number of iterations", "why_tests_cant": "There are infinitely many polynomials and starting points, and the loop has no iteration limit, so a test cannot show that it never ends.", "anchors": ["src/newton_fractal.cpp:37-47", "src/newton_fractal.cpp:104-106"]}
{"id": "C98", "title": "A pixel of the fractal is coloured by the direction of its root", "statement": "The position on the colour map is the angle of the value that the search returns, as a fraction of a turn, in [0,1); every value that a search returns has a defined, opaque colour; starting points whose searches end at the same root get nearly the same colour.", "quantifier": "for every starting point and every finite complex value", "why_tests_cant": "The colour depends on the last bits of the value returned, and only a proof covers all starting points around a root; a picture does not show a speckled basin as wrong.", "anchors": ["src/newton_fractal.cpp:104-117"]}
{"id": "C99", "title": "complex_halley returns zeros", "statement": "A value that complex_halley(fifth_roots_halley, z) returns is, up to a few machine epsilons, a fifth root of unity.", "quantifier": "for every starting point", "why_tests_cant": "The starting points at which the stopping test passes wrongly form a tiny set near the points where 3z^5+2 vanishes; a sampling test does not meet it.", "anchors": ["src/newton_fractal.cpp:18-35", "src/newton_fractal.cpp:49-59"]}
{"id": "C100", "title": "Differences of products keep their accuracy under cancellation", "statement": "difference_of_products, cross, the 2x2 determinant and discriminant return values whose error is a few machine epsilons of the result plus second-order terms of the products, even when the two products nearly cancel.", "quantifier": "for all finite arguments with a finite result, every rounding direction and every binary format with at least 9 bits", "why_tests_cant": "Cancellation is worst for argument pairs that a test has to search for; an implementation that drops or negates the compensation agrees to all digits on almost all inputs.", "anchors": ["include/drt/math.hpp:10-15", "include/drt/vec.hpp:199-209", "include/drt/matrix.hpp:66-79", "include/drt/roots.hpp:13-20"]}
{"id": "C101", "title": "Dot and matrix products have a forward error bound", "statement": "dot, squared_norm, matrix-vector and matrix-matrix products differ from the exact value by at most (1+eps)^(n+1)-1 times the sum of the magnitudes of the terms, plus the underflow of n terms.", "quantifier": "for every dimension n, all finite vectors with a finite result, every rounding direction", "why_tests_cant": "A test compares a few vectors with a tolerance; the bound has to hold for all dimensions and all magnitudes.", "anchors": ["include/drt/vec.hpp:106-113", "include/drt/vec.hpp:142-149", "include/drt/matrix.hpp:41-64"]}
{"id": "C102", "title": "normalize returns a vector of length one up to rounding", "statement": "Every component of normalize(v) has the right sign and a relative error of about (n+5)/2 machine epsilons; in space the squared length is within nine machine epsilons of one.", "quantifier": "for every dimension and every nonzero vector, without overflow and underflow", "why_tests_cant": "The direction with the largest error is not known in advance and differs between formats.", "anchors": ["include/drt/vec.hpp:134-140"]}
{"id": "C103", "title": "quadratic_roots is backward stable", "statement": "Every number returned has a residual of at most twelve machine epsilons of the sum of the magnitudes of the terms, and the decision between two roots and none is wrong only when the discriminant is below a second-order error.", "quantifier": "for all coefficients, without overflow and underflow", "why_tests_cant": "The textbook formula passes ordinary tests and fails by many digits only when one root is much smaller than the other or the roots nearly coincide.", "anchors": ["include/drt/roots.hpp:24-87"]}
{"id": "C104", "title": "Hit points of a sphere lie on the sphere up to rounding", "statement": "The point reported by sphere::hit satisfies the equation of the sphere up to 24 machine epsilons of the squared magnitudes of the coordinates involved, and the reported parameter lies in the requested range.", "quantifier": "for every sphere, ray with nonzero direction and range, without overflow and underflow", "why_tests_cant": "Glancing rays and distant small spheres amplify errors; tests sample neither densely enough to bound the error.", "anchors": ["include/drt/sphere.hpp:145-163"]}
{"id": "C105", "title": "The curvature pictures show the curvature", "statement": "The colours of the example programs are defined at every hit and say where the Gaussian curvature of the surface at the hit lies between the least and the greatest value on that surface, linearly for the ellipsoid and the torus and logarithmically for Enneper's surface and the helicoid.", "quantifier": "for every size of the surface and every hit", "why_tests_cant": "The programs only produce pictures; whether every point gets a defined colour, and the right one, is a statement about all hits.", "anchors": ["src/ellipsoid_curvature.cpp:36-40", "src/torus_curvature.cpp:35-39", "src/enneper.cpp:30-37", "src/helicoid.cpp:30-37", "src/disk.cpp:30-32"]}
{"id": "C106", "title": "A list of surfaces shows the first point of their union", "statement": "If every object of a list finds the nearest point of its surface, the list finds the first point in the range at which the ray meets any of the surfaces, with the material of an object that contains it, and finds nothing exactly if there is no such point.", "quantifier": "for every number of objects, all surfaces, rays and ranges", "why_tests_cant": "Tests of lists have a handful of objects in fixed order; the claim is about every list and every order.", "anchors": ["include/drt/hittable_list.hpp:33-61"]}
{"id": "C107", "title": "The six sides of a box are its surface", "statement": "A ray hits the box exactly if it meets the surface of the cuboid in the range, the first such point is reported, and the bounding box contains the surface.", "quantifier": "for all corners and all rays", "why_tests_cant": "Each side is built from a different permutation of the six corner coordinates; a wrong pair is visible only to rays through one side.", "anchors": ["include/drt/box.hpp:17-49"]}
{"id": "C108", "title": "The camera is a perspective projection", "statement": "A point is on a ray of the image, in front of the eye, exactly if it lies in the pyramid given by the opening angle and the aspect ratio, and different places of the image never show the same point.", "quantifier": "for every eye, look-at point, up vector, opening below 180 degrees, positive aspect ratio and every point", "why_tests_cant": "Tests check a few rays; that the rays fill the pyramid exactly once is a statement about all of them.", "anchors": ["include/drt/camera.hpp:9-33"]}
{"id": "C109", "title": "The light behind the camera lights the scene and is never seen", "statement": "The disk that the programs build from camera::backlight() exists, no ray of the camera hits it, and a ray from the look-at point to the eye does.", "quantifier": "for every camera and every place of the image", "why_tests_cant": "A disk a little too near or turned the wrong way spoils only some pictures.", "anchors": ["include/drt/camera.hpp:35-40", "src/ellipsoid_curvature.cpp:70-72", "src/disk.cpp:54-56", "src/enneper.cpp:61-63", "src/helicoid.cpp:94-96"]}
{"id": "C110", "title": "The animation shows the whole ellipsoid from 360 places", "statement": "Every point of the ellipsoid is inside the picture of every frame, no two frames have the same viewpoint, and the alphabetical order of the file names is the order of the frames.", "quantifier": "for every frame and every point of the ellipsoid", "why_tests_cant": "Looking at the frames does not show that no point is cut off; the margin is below one percent.", "anchors": ["src/ellipsoid_curvature.cpp:29-31", "src/ellipsoid_curvature.cpp:53-83"]}
{"id": "C111", "title": "Image heights are exact and pixels are square", "statement": "The height computed as width / 1.6 in float or double is the integer part of the exact quotient, and the pixels of every program are square up to one part in the width.", "quantifier": "for every width below the precision of the format, every camera", "why_tests_cant": "1.6 is not a binary fraction, so a width for which the quotient is truncated to one less cannot be excluded by trying some widths.", "anchors": ["src/cylinder.cpp:43-53", "src/ellipsoid.cpp:50-61", "src/ellipsoid_curvature.cpp:53-69", "src/render_spheres.cpp:86-97", "include/drt/render_scene.hpp:41-43"]}
{"id": "C112", "title": "The random spheres do not intersect", "statement": "The small spheres of the random scene have no common points with the ground, the large spheres and each other.", "quantifier": "for all random numbers", "why_tests_cant": "The scene is different for every seed; a rare overlap does not show up in one run.", "anchors": ["src/render_spheres.cpp:36-78"]}
{"id": "C113", "title": "Order of convergence of the one-dimensional searches", "statement": "A step of newton inside the range squares the distance to a root and a step of halley cubes it, up to factors given by the derivatives. newton solves affine functions and halley quotients of affine functions exactly. Started at the vertex of a parabola, halley returns the zero to the right.", "quantifier": "for all functions with Lipschitz derivatives, all starting points, ranges and roots", "why_tests_cant": "A wrong sign in the step still converges on simple tests, only more slowly, because the bisection fallback and 33 repetitions hide it.", "anchors": ["include/drt/newton.hpp:28-67", "include/drt/halley.hpp:31-82"]}
{"id": "C114", "title": "What the searches in several dimensions achieve", "statement": "Without a random restart the residual of the vector returned by newton is not larger than at the first guess. newton solves invertible affine systems in one loop body, halley systems A m(x) = 0 where every m_i is a quotient of affine functions of x_i.", "quantifier": "for every dimension, system, guess, bounds and iteration limit, and every linear solver that solves the systems it is given", "why_tests_cant": "A wrong factor in the second-order term still converges on simple tests, only more slowly.", "anchors": ["include/drt/newton.hpp:72-192", "include/drt/halley.hpp:86-163", "include/drt/tensor.hpp:25-36"]}
{"id": "C115", "title": "Ko's method is exact on planes and starts in the middle", "statement": "On a patch of a plane ko_method returns the exact intersection with the ray after one step, if the ray parameter is in the range, and NaN if it is not. Without starting values it starts in the middle of the parameter range.", "quantifier": "for all planes, rays, starting points and bounds above the angle and regularity thresholds", "why_tests_cant": "The position of the plane, the ray and the start are continuous; a wrong projection shows only for skew parameter directions.", "anchors": ["include/drt/ko_method.hpp:11-24", "include/drt/ko_method.hpp:30-130"]}
{"id": "C116", "title": "area() and volume() of spheres and tori are the area and the volume", "statement": "sphere::area() equals the integral of |σ_u × σ_v| over the sphere's own parametrization σ = operator()(u,v) on the unit square, and sphere::volume() equals the Lebesgue measure of the closed ball. torus::area() equals the integral of |σ_u × σ_v| over the torus's parametrization, and torus::volume() equals the Lebesgue measure of the solid torus, whenever the tube radius is at most the ring radius.", "quantifier": "every centre, every radius r ≥ 0 (any sign for the sphere's area), every pair of radii 0 ≤ r ≤ R, in exact arithmetic", "why_tests_cant": "A test compares the formula with a number someone computed from the same formula. That it is the measure of the set of points, for every radius, is a statement about integrals over uncountable sets.", "anchors": ["include/drt/sphere.hpp:41-47", "include/drt/torus.hpp:31-37"]}
{"id": "C117", "title": "Hit points of a torus lie on the torus up to rounding", "statement": "Whenever torus::hit returns true with a finite parameter, the recorded point is finite and satisfies the implicit equation of the torus up to 119 machine epsilons times the square of |p-c|²+R²+r², no matter how accurate the roots of the quartic were. If 0 < r < R, some point of the torus is within 3000 ε (R+r)⁴ / (r (R²-r²)) of it.", "quantifier": "every centre, radii, ray, range and record, every binary rounding without overflow and underflow with at least 9 (equation) or 11 (distance) bits", "why_tests_cant": "The bound has to hold for every ray, including those for which the quartic is ill conditioned; the intermediate rounding errors depend on all the inputs.", "anchors": ["include/drt/torus.hpp:83-108", "include/drt/torus.hpp:155-178", "include/drt/torus.hpp:248-283"]}
{"id": "C118", "title": "Hit points of rectangles, cylinders and ellipsoids lie on them up to rounding", "statement": "A point recorded by a rectangle lies within the sides of the rectangle exactly, and off its plane by at most ε|k| + 3.1 ε|k - o|, however glancing the ray. A finite point recorded by a cylinder is at the radius from the axis up to 27 ε times the radius, and its height is in the range exactly, or it is the point that the record held before. A point recorded by an ellipsoid satisfies its equation up to 27 ε of the squared lengths involved, measured in the semi-axes, and its parameter is finite and in the range.", "quantifier": "every rectangle, cylinder and ellipsoid with nonzero semi-axes, every ray, range and record, every binary rounding of at least 9 bits without overflow and underflow; the rectangle's ray must cross its plane", "why_tests_cant": "The bounds must hold for every ray, including glancing ones and ones from far away.", "anchors": ["include/drt/aarect.hpp:99-152", "include/drt/cylinder.hpp:26-32", "include/drt/cylinder.hpp:73-127", "include/drt/ellipsoid.hpp:114-143"]}
{"id": "C119", "title": "A scattered ray does not hit the surface that it leaves", "statement": "ray_color starts scattered rays at the recorded point and searches from 1000 epsilon. That offset outweighs the rounding error of the recorded point: from a point recorded by a rectangle, a ray in direction v does not hit the rectangle again if |k| + 3.1|k - o| ≤ 980|v_n|; from a point recorded by a sphere, a ray that points out of the sphere by enough does not hit the sphere again. Without such a condition the claim fails: in single precision a square at height 3 is hit again by a ray scattered from it at a slope of 1 to 1024.", "quantifier": "every rectangle, sphere, ray, range, record and scattered direction within the stated condition, every binary rounding of at least 9 bits without overflow and underflow; the refutation is for IEEE single precision", "why_tests_cant": "Whether the recorded point lands on the wrong side of the surface depends on all the bits of the ray; the offset must outweigh the error for every ray.", "anchors": ["include/drt/ray_color.hpp:15", "include/drt/aarect.hpp:99-152", "include/drt/sphere.hpp:145-175"]}
{"id": "C120", "title": "The example programs come to an end with a complete image", "statement": "with_lights, cylinder, render_spheres and ellipsoid run to the end: every query of the scene, every scattering and every conversion of a pixel is defined, the rejection loops terminate, and the image has four bytes for each pixel, all of them opaque. This holds with rounding in any format that rounds monotonically, whatever the order of the rows, the small spheres that render_spheres draws and the numbers that dielectrics, media and isotropic materials draw. In exact arithmetic the same holds for disk and torus_curvature, whose colours come from a colour map that has undefined behaviour for NaN.", "quantifier": "every order of the rows, every content of uninitialized hit records, all random draws in [0,1] of render_spheres, all draws of dielectrics and media; every monotone rounding with exact small integers and quarters (disk and torus_curvature: exact arithmetic)", "why_tests_cant": "The programs take minutes and draw their randomness from seeds; that no sample of any run leads to an undefined access or to a loop without end needs an invariant over all rays and generator states.", "anchors": ["src/with_lights.cpp:30-66", "src/cylinder.cpp:22-56", "src/render_spheres.cpp:20-101", "src/ellipsoid.cpp:29-64", "src/disk.cpp:20-60", "src/torus_curvature.cpp:21-65", "include/drt/render_scene.hpp", "include/drt/ray_color.hpp"]}
{"id": "C121", "title": "Light adds up, and more light never makes a picture darker", "statement": "Take scenes with the same shapes and the same scattering that differ only in their lamps and backgrounds. In exact arithmetic, if the lights and background of one are a linear combination of those of the others, then for equal random numbers the colour ray_color returns is the same combination of the colours in the others. In every arithmetic that rounds monotonically, if the lights and background of one are at least as bright as those of another, then every byte of its rendered picture is at least as large.", "quantifier": "all worlds with equal hits and scattering, all emissions and backgrounds, all depths, rays and generator states; all image sizes, sample counts and row orders; every monotone rounding for the second part", "why_tests_cant": "It relates the results of different scenes along every path of reflected rays; tests compare a few colours of one scene.", "anchors": ["include/drt/ray_color.hpp", "include/drt/render_scene.hpp", "include/drt/diffuse_light.hpp", "include/drt/png.hpp"]}
{"id": "C122", "title": "A picture shows what lies in front of the camera", "statement": "In exact arithmetic no pixel of a rendered picture is darker than the darkest ray through its cell of the image plane, or brighter than the brightest, and the cell in column i from the left and row j from the bottom is drawn in column i and row H-1-j from the top; where all rays have one colour c the bytes are floor(255 sqrt c), at most 255. In a scene of lamps (objects that find the nearest point of their surface) the colour of a ray is that of the first surface it meets, or of the background if it meets none. An empty scene shows the background in every pixel.", "quantifier": "all scenes whose rays have finite colours; all lists of lamps, cameras, image sizes of two or more pixels, sample counts, row orders and generator states", "why_tests_cant": "It needs the camera, the search for the nearest surface, the sampling loop, the scheduling of rows and the byte conversion to work together for every pixel and every random offset.", "anchors": ["include/drt/render_scene.hpp", "include/drt/ray_color.hpp", "include/drt/camera.hpp", "include/drt/hittable_list.hpp", "include/drt/diffuse_light.hpp", "include/drt/png.hpp"]}
{"id": "C123", "title": "lambertian scatters light by Lambert's cosine law", "statement": "The directions in which a lambertian surface scatters follow Lambert's cosine law: the share of rays that leave at more than an angle alpha from the normal is cos^2 alpha, so half of them leave at more than 45 degrees, and every lamp in view of a point lights it.", "quantifier": "all unit normals, all generator states", "why_tests_cant": "A statement about the distribution over all generator states and about what can never happen; a test sees a few directions, all of which look plausible.", "anchors": ["include/drt/lambertian.hpp:23-53"]}
{"id": "C124", "title": "moving the whole scene does not change the picture", "statement": "If every object of a scene and the camera are moved by the same vector, render_scene writes the same image, byte for byte, with the same random numbers.", "quantifier": "all vectors, all scenes of spheres, ellipsoids, tori, disks, rectangles, cylinders moved along their axes and trees of them with any materials, all image sizes and numbers of samples", "why_tests_cant": "It relates two runs of the whole renderer, for every scene and every vector.", "anchors": ["include/drt/render_scene.hpp:14-58", "include/drt/camera.hpp:11-33", "include/drt/sphere.hpp:145-163", "include/drt/torus.hpp:155-283", "include/drt/aarect.hpp:99-152", "include/drt/checker_texture.hpp:20-27"]}
{"id": "C125", "title": "a bvh is balanced and a query costs at most one test per node", "statement": "The tree over n objects has height ceil(log2 n), whatever axes are drawn and however equal boxes are sorted. A query tests each box at most once, asks each object at most once, and has the outcome of asking the objects it reaches one after the other.", "quantifier": "all lists of objects, all random axes, all orders std::sort may produce, all rays", "why_tests_cant": "A bound for every number of objects, every draw of std::random_device and every ray; slow trees still give right pictures.", "anchors": ["include/drt/bvh.hpp:44-53", "include/drt/bvh.hpp:82-131"]}
{"id": "C126", "title": "a medium fills its boundary", "statement": "A constant_medium scatters a ray according to the length of the way that lies inside the body its boundary encloses, in front of the origin and in the range: exactly when the random number is at least exp(-density * length), and then the way through the body up to the point reported is -log(random)/density.", "quantifier": "all boundaries, rays, ranges, densities and random numbers", "why_tests_cant": "A law about the measure of the part of a ray inside a body, for every body, ray and range; a test can only sample scattering frequencies.", "anchors": ["include/drt/constant_medium.hpp:41-75"]}
{"id": "C127", "title": "fog is seen from afar", "statement": "A medium scatters rays that cross it wherever it is: the second crossing of the boundary is not the first one again, however far away the body is.", "quantifier": "all IEEE formats, spheres and ellipsoids, rays, densities, random numbers and ranges", "why_tests_cant": "The failure depends on the size of the ray parameter against the spacing of floating-point numbers; tests place their objects near the origin, and a medium that is not seen looks like an empty scene.", "anchors": ["include/drt/constant_medium.hpp:41-75", "include/drt/sphere.hpp:145-163", "include/drt/ellipsoid.hpp:114-143"]}
{"id": "C128", "title": "light paths can be followed backwards", "statement": "If a mirror or glass sends a ray from u to w, it sends a ray that arrives along -w to -u, and with the same probability. A plate of glass with parallel faces does not change directions, and a ray that enters a glass ball can always leave it again, under the angle at which it entered.", "quantifier": "all indices, directions, normals, random numbers; all balls and rays entering them", "why_tests_cant": "The claim relates two calls over a continuum of directions and random numbers; a wrong ratio or a flipped normal on the inside still gives unit directions and plausible pictures.", "anchors": ["include/drt/dielectric.hpp:12-20", "include/drt/dielectric.hpp:33-56", "include/drt/dielectric.hpp:67-74", "include/drt/metal.hpp:18-27", "include/drt/sphere.hpp:145-163"]}
{"id": "C129", "title": "the order in which objects are added does not matter", "statement": "Adding the same objects in a different order gives the same picture: every query returns the same material and a record that shows the same point, normal, side and texture coordinates, ray_color gives the same colour and uses the same random numbers, and the image is the same byte for byte.", "quantifier": "all permutations of all lists of objects, all rays, depths, generators and cameras; any rounding for the query and the ray colour", "why_tests_cant": "There are n! orders and the state that could leak between objects, closest_so_far and the shared temp_rec, depends on which were asked before; a test tries one order.", "anchors": ["include/drt/hittable_list.hpp:11-58", "include/drt/sphere.hpp:145-163", "include/drt/ellipsoid.hpp:114-143", "include/drt/aarect.hpp:99-152", "include/drt/disk.hpp:98-140", "include/drt/ray_color.hpp:10-32"]}
{"id": "C130", "title": "a sphere has no holes and no ghosts beyond a rim of rounding width", "statement": "However hit rounds, a ray that passes inside a sphere by more than a stated small multiple of the rounding unit is reported as a hit, one that stays outside by more than such a multiple is reported as a miss, and the recorded parameter is that of the first crossing up to a stated error.", "quantifier": "all spheres, rays and ranges, in all formats with any precision and without overflow and underflow", "why_tests_cant": "Which pixels of the rim flip depends on the rounding of the discriminant for each ray; pictures rendered in a test cover a few million rays of one scene.", "anchors": ["include/drt/sphere.hpp:145-163", "include/drt/roots.hpp:24-103"]}
{"id": "C131", "title": "threads that share generators without a lock still leave a complete image", "statement": "render_scene distributes rows over threads that draw from shared generators without a lock. In whatever way the loads and stores of the generators interleave, updates being lost, a generator never leaves the sequence it would run through if used by one thread; no thread runs into undefined behaviour inside the scene; and when all threads are done the image has four bytes per pixel and every pixel is opaque. The picture of the sequential run is one of the outcomes.", "quantifier": "all numbers of threads, all distributions of rows, all interleavings of loads and stores, all initial generator states, all rounding formats", "why_tests_cant": "A test run exercises the few interleavings that the machine happens to produce; the number of interleavings is exponential in the number of draws.", "anchors": ["include/drt/render_scene.hpp:14-58", "include/drt/lambertian.hpp:13-59", "include/drt/pcg.hpp:11-28"]}
{"id": "C132", "title": "the expected residual is the residual caused by relative errors of the coordinates", "statement": "torus::expected_residual(p) is 20 eps times the greatest first-order change of residual(p) when every coordinate relative to the centre has a relative error of one unit; at points of the surface it is positive. cylinder::expected_residual is the same with 10 eps at points of the surface. helicoid::hit accepts residuals up to 10 eps times, and newton and halley in several variables up to eps times, the greatest first-order change of any component under relative errors of the unknowns.", "quantifier": "all tori, cylinders, helicoids, rays, points and differentiable functions with any number of unknowns", "why_tests_cant": "The greatest change over all combinations of errors is a supremum over a continuum; a test can compare with a few perturbations.", "anchors": ["include/drt/torus.hpp:92-108", "include/drt/cylinder.hpp:26-32", "include/drt/helicoid.hpp:461-475", "include/drt/newton.hpp:165-176", "include/drt/halley.hpp:138-149"]}
{"id": "C133", "title": "refining a point of the torus squares its error", "statement": "When a ray crosses a torus and is not tangent to it, torus::refine_hit_point moves a point of the ray near the crossing to a point whose distance from the crossing is at most a constant times the square of the error of the parameter; at the crossing itself it changes nothing.", "quantifier": "all tori, all rays and crossings that are not tangential, all sufficiently small errors", "why_tests_cant": "The order of convergence is a statement about a limit; a test measures the error at finitely many parameters.", "anchors": ["include/drt/torus.hpp:152-178"]}
{"id": "C134", "title": "the frames of the ellipsoid animation have defined colours", "statement": "In every frame of ellipsoid_curvature.cpp, the ray of the camera through any point of the picture yields a defined colour between 0 and 1, whatever the state of the random numbers and the depth.", "quantifier": "all frames, all points of the picture, all generator states, all depths", "why_tests_cant": "The rays are random reals and the scattered rays depend on the generator; a test renders finitely many rays of finitely many frames, and the points where the claim fails form a set of measure zero.", "anchors": ["src/ellipsoid_curvature.cpp:26-83", "include/drt/ellipsoid.hpp", "include/drt/ray_color.hpp:10-32", "include/drt/lambertian.hpp"]}
{"id": "C135", "title": "a ray that meets Enneper's surface is reported", "statement": "enneper::hit has defined behaviour for every ray; in particular a ray that meets the ball of the given radius around the origin gets an answer, and some rays are reported as hits, so that enneper.cpp draws a picture.", "quantifier": "all radii, rays, ranges and records; all orders of the rows and generator states", "why_tests_cant": "The fault is a read of an element that was never written; on a given machine it yields some number, so a test sees plausible answers or not depending on what the memory held before.", "anchors": ["include/drt/enneper.hpp:114-224", "include/drt/matrix.hpp:180-274", "include/drt/newton.hpp:72-192", "src/enneper.cpp"]}
{"id": "C136", "title": "no colour is brighter than the brightest lamp", "statement": "If every material either shines with at most L and does not scatter, or scatters with factors at most 1 and does not shine, and the background is at most L, then every colour that ray_color computes lies between 0 and L, at every depth; in particular the colours of enneper.cpp lie between 0 and 2 and those of helicoid.cpp between 0 and 1.", "quantifier": "all scenes including those whose hit functions are not always defined, all rounding directions, depths, rays and random states", "why_tests_cant": "The claim is about every path through every geometry and every sequence of random numbers, and about rounding accumulated along a path of any length.", "anchors": ["include/drt/ray_color.hpp:10-32", "include/drt/hittable_list.hpp:35-58", "src/enneper.cpp", "src/helicoid.cpp", "include/drt/dielectric.hpp", "include/drt/diffuse_light.hpp"]}
{"id": "C137", "title": "the recorded normal and front_face mean the same for every shape", "statement": "On every hit the recorded normal has length one, is perpendicular to the surface and does not point along the ray; front_face is true exactly if the ray arrives from outside the body, and then the normal points out of the body; otherwise the ray is tangent or arrives from inside and the normal points into the body.", "quantifier": "all spheres, ellipsoids, cylinders, ring tori, disks and axis-aligned rectangles, all rays, ranges and records", "why_tests_cant": "Inside and outside are about all points near the hit, and the claim is for every ray and every position of the shape.", "anchors": ["include/drt/hittable.hpp", "include/drt/sphere.hpp", "include/drt/ellipsoid.hpp", "include/drt/cylinder.hpp", "include/drt/torus.hpp", "include/drt/disk.hpp", "include/drt/aarect.hpp"]}
{"id": "C138", "title": "mean and principal curvatures have one sign convention", "statement": "mean_curvature() and principal_curvatures() of a hit record are those of the surface for the inward normal, so that a surface that bulges outwards has positive curvature, whichever shape it is and whichever side the ray comes from.", "quantifier": "all spheres, ellipsoids, cylinders and ring tori, all rays that hit them", "why_tests_cant": "The claim compares all shapes at all points; each shape alone passes a test with its own sign.", "anchors": ["include/drt/hittable.hpp:51-63", "include/drt/sphere.hpp", "include/drt/ellipsoid.hpp", "include/drt/cylinder.hpp", "include/drt/torus.hpp"]}
{"id": "C139", "title": "different random choices are independent of each other", "statement": "The places of the samples in their pixels and the directions into which matt surfaces scatter are chosen independently of each other, and two matt materials choose independently.", "quantifier": "all scenes, all matt materials, all sequences of hits, all samples of a picture", "why_tests_cant": "Each sequence of numbers alone looks random; that two of them are the same sequence for ever is a statement about all steps of both.", "anchors": ["include/drt/render_scene.hpp:24-26", "include/drt/render_scene.hpp:40-45", "include/drt/lambertian.hpp:16-19", "include/drt/lambertian.hpp:23-52", "include/drt/pcg.hpp"]}
{"id": "C140", "title": "glass of index 1 is invisible", "statement": "A dielectric of refractive index 1 without emission lets every ray pass unchanged, so that pictures do not depend on whether such objects are in the scene.", "quantifier": "all rays, normals and random numbers; rows of any number of panes, any depth", "why_tests_cant": "Whether a ray passes depends on a random number, and the number of panes that can be seen through is a statement about all numbers of panes.", "anchors": ["include/drt/dielectric.hpp:33-56", "include/drt/dielectric.hpp:67-74", "include/drt/ray_color.hpp:9-33", "src/helicoid.cpp:50"]}
{"id": "C141", "title": "the helicoid looks for intersections where they are", "statement": "The clipped range of parameters and the bounds for the two surface coordinates, inside which helicoid::hit searches, contain every point where the ray meets the surface inside the given range; so no part of the surface is invisible because the search excludes it.", "quantifier": "all helicoids of positive radius and speed, all rays, all ranges, all intersections", "why_tests_cant": "A ray that loses its intersection looks like an ordinary miss, and the rays that do form a thin part of each picture.", "anchors": ["include/drt/helicoid.hpp:165-183", "include/drt/helicoid.hpp:186-234", "include/drt/helicoid.hpp:356-397", "include/drt/helicoid.hpp:408-434"]}
{"id": "C142", "title": "rectangles that share an edge leave no gap between them", "statement": "Rectangles of a scene that meet along an edge leave no gap: a rectangle cut into pieces is hit by exactly the rays that hit one of the pieces, and a ray cannot enter a closed box of six rectangles without hitting one of them.", "quantifier": "all rectangles, all numbers and positions of cuts, all boxes, all rays and ranges, all roundings", "why_tests_cant": "The rays that pass exactly through an edge are a vanishing part of all rays, and whether one slips through depends on how a division and a multiplication round.", "anchors": ["include/drt/aarect.hpp:98-151", "include/drt/hittable_list.hpp:35-58", "include/drt/ray_color.hpp:9-33"]}
{"id": "C143", "title": "rays parallel or orthogonal to its axis see the helicoid", "statement": "For rays parallel or orthogonal to the axis helicoid::hit solves for the intersection directly, and finds it: if such a ray meets the surface inside the range, hit reports the first such point with its parameter and surface coordinates.", "quantifier": "all helicoids of positive radius, all rays in these directions, all ranges", "why_tests_cant": "Each direction has its own branch of the code, with further branches inside, and the wrong ones are taken only by rays in special positions.", "anchors": ["include/drt/helicoid.hpp:247-330", "include/drt/helicoid.hpp:403-434"]}
{"id": "C144", "title": "expressions evaluated with intervals enclose their values", "statement": "A program that evaluates an expression with interval<Real> in place of numbers gets an interval that contains the value of the expression at all numbers in the given intervals. If no variable occurs twice, and without rounding, it contains nothing else.", "quantifier": "all expressions of any size in any number of variables, all intervals, all numbers in them", "why_tests_cant": "The number of expressions is unbounded, and enclosure of each operation on sampled intervals says nothing about their composition.", "anchors": ["include/drt/interval.hpp:47-205"]}
{"id": "C145", "title": "light cannot be caught in a glass ball", "statement": "A ray that goes into a glass sphere from outside is never totally reflected inside, however often it was mirrored before: at each hit it leaves if the random number is at least a number below 1, which is the same at all hits. It leaves in the plane of its arrival, under the angle at which it arrived. A ray that starts inside, so flat that its sine times the index exceeds 1, never leaves.", "quantifier": "all balls, all positive indices, all rays, all sequences of random numbers of any length", "why_tests_cant": "Paths inside are arbitrarily long and depend on random numbers, and a wrong ratio or normal at one of the hits shows only as a slightly different picture.", "anchors": ["include/drt/sphere.hpp:145-163", "include/drt/dielectric.hpp:13-56"]}
{"id": "C146", "title": "rooms with mirrors as walls", "statement": "Along any number of mirrors parallel to the coordinate planes each component of the direction keeps its size and changes its sign with each reflection across it; three mirrors at right angles send light back where it came from. No ray gets out of a closed room: one sees the walls and never the background.", "quantifier": "all rays, all positions and sizes of the mirrors, all sequences of mirrors of any length, all rooms", "why_tests_cant": "The light can be mirrored any number of times in any order, and a gap at an edge of the room is a set of rays that a random sample misses.", "anchors": ["include/drt/aarect.hpp:98-151", "include/drt/metal.hpp:18-27", "include/drt/box.hpp:30-49", "include/drt/ray_color.hpp:9-33"]}
{"id": "C147", "title": "the chances of the random choices", "statement": "With ideal random numbers: isotropic scatters into a set of directions with the same probability as into the set turned by any rotation, and the direction has length one almost surely; a medium lets the share exp(-density * length) of the rays pass; glass mirrors the share of Schlick's formula; and of the rays that lambertian scatters, the share 2c^4 - 3/2 + 1/(2c^2) leaves at more than the angle alpha up to 45 degrees from the normal, where c = cos alpha.", "quantifier": "all sets of directions and rotations, all bodies of fog and rays, all indices and angles, all normals", "why_tests_cant": "Probabilities can only be estimated by sampling, and small errors in a distribution do not show in a picture.", "anchors": ["include/drt/isotropic.hpp:20-44", "include/drt/lambertian.hpp:23-52", "include/drt/dielectric.hpp:33-56", "include/drt/constant_medium.hpp:41-75"]}
{"id": "C148", "title": "the sampling loop of lambertian is fair", "statement": "If every sequence of 32 bit numbers is equally probable, random_unit_vector prefers none of the points that it keeps: with any bound on the bodies of its loop, the probability that it returns a vector of a set is the share of that set among the points kept, times the probability that it returns at all. The share of the points kept is pi/6 up to the distance of neighbouring points, so that the probability that more than n bodies are needed is at most (1/2)^n. Opposite vectors are equally probable.", "quantifier": "all sets of vectors, all bounds on the loop, all arithmetics (for the first claim)", "why_tests_cant": "Exact probabilities over all sequences of draws; a test can only count frequencies in a sample.", "anchors": ["include/drt/lambertian.hpp:36-44", "include/drt/pcg.hpp:11-29"]}
{"id": "C149", "title": "turning or mirroring the whole scene changes nothing", "statement": "If all spheres and disks of a scene and its camera are turned about the origin, render_scene writes the same image, byte for byte. If they are mirrored, what was seen at a place of the picture is seen at the place that mirrors it.", "quantifier": "all rotations and mirror images, all lists of spheres and disks of metal, glass, light and matt material, all cameras that look somewhere, all image sizes from 2x2 on, all seeds", "why_tests_cant": "A relation between two renderings for every rotation and every scene; a test compares a few pictures at a few angles.", "anchors": ["include/drt/camera.hpp:11-34", "include/drt/sphere.hpp", "include/drt/disk.hpp:98-140", "include/drt/metal.hpp:18-27", "include/drt/dielectric.hpp:33-56", "include/drt/lambertian.hpp:23-52", "include/drt/ray_color.hpp:9-33", "include/drt/render_scene.hpp:30-58"]}
{"id": "C150", "title": "the unit of length does not matter", "statement": "If all positions and sizes of a scene and its camera are given in another unit of length, every hit is the same hit in the other unit, with the same normal, u and v, a bvh over the objects is the same tree with the same boxes, and render_scene writes the same image, byte for byte.", "quantifier": "all factors (in floating point: all powers of two), all spheres, ellipsoids, disks, rectangles and cylinders of all materials, all trees of them, all rays, all ranges, all depths and seeds", "why_tests_cant": "A relation between two renderings for every factor and every scene; a test compares a few scenes in a few units and does not see where a fixed constant begins to matter.", "anchors": ["include/drt/ray_color.hpp:15", "include/drt/roots.hpp:20-103", "include/drt/sphere.hpp:145-163", "include/drt/ellipsoid.hpp:114-143", "include/drt/disk.hpp:98-140", "include/drt/aarect.hpp:99-151", "include/drt/cylinder.hpp:73-127", "include/drt/bvh.hpp:44-131", "include/drt/aabb.hpp:18-31", "include/drt/camera.hpp:11-34", "include/drt/render_scene.hpp:30-58"]}
{"id": "C151", "title": "The random scene is complete", "statement": "The scene of render_spheres.cpp consists of the ground, the three large balls and one small ball for each cell of a grid of 22 by 22 that is not near the metal ball, each with its own kind of material, and of nothing else. It has at least 484 and at most 488 balls. Every small ball is seen from above.", "quantifier": "for all random numbers", "why_tests_cant": "The scene is different for every seed; among almost five hundred balls a missing row of cells does not show in one run.", "anchors": ["src/render_spheres.cpp:22-81"]}
{"id": "C152", "title": "The foggy glass ellipsoid is in the picture", "statement": "Every point of the glass ellipsoid of ellipsoid.cpp and of the fog in it is inside the picture. The fog fills the glass and lets the share exp(-0.015 L) of the light pass, where L is the length of the way through the ellipsoid.", "quantifier": "for every point of the ellipsoid, every ray that crosses it, every range", "why_tests_cant": "Looking at the picture does not show that no point is cut off, and a rendered picture shows the density of the fog only up to noise.", "anchors": ["src/ellipsoid.cpp:30-64", "include/drt/constant_medium.hpp:41-75"]}
{"id": "C153", "title": "The helicoid stands in invisible glass and is in the picture", "statement": "The cylinder of helicoid.cpp encloses the helicoid, with the rim of the helicoid on the cylinder. Its glass has index 1: it does not shine, and a ray goes on through it unless it is mirrored with the probability (1-cos)^5. Every point of the helicoid is inside the picture.", "quantifier": "for every point of the helicoid, every ray and every random number", "why_tests_cant": "Looking at the picture does not show which part of the surface is outside of it.", "anchors": ["src/helicoid.cpp:23-53", "src/helicoid.cpp:79-107", "include/drt/helicoid.hpp:51-57"]}
{"id": "C154", "title": "How near a camera may be", "statement": "A ball around the look-at point is wholly in the picture exactly if its radius is at most the distance of the eye times the sine of half the field of view, for pictures that are at least as wide as high. Therefore torus_curvature.cpp shows the whole torus, disk.cpp the whole disk and with_lights.cpp the whole metal ball.", "quantifier": "for all cameras with an aspect ratio of at least one, all radii, all points of the objects", "why_tests_cant": "A statement about every point of a body and every camera, with a sharp bound; a test looks at a few pixels.", "anchors": ["include/drt/camera.hpp:11-34", "src/torus_curvature.cpp:23-65", "src/disk.cpp:23-59", "src/with_lights.cpp:32-65"]}
{"id": "C155", "title": "One crossing of a fog after another", "statement": "A constant_medium draws a new random number for every query. If the numbers are independent and uniform, the answers to successive queries are independent: every sequence of passing and stopping has the product of the single chances, and the chance to pass several crossings depends only on the total length of the way in the fog. This holds for the fog of ellipsoid.cpp, which leaves the random numbers of the glass and of the isotropic material alone.", "quantifier": "for all numbers of queries, all rays that cross the body, all ranges, all sequences of answers", "why_tests_cant": "A statement about the joint distribution of arbitrarily many answers; a test sees a few draws and cannot exclude correlations.", "anchors": ["include/drt/constant_medium.hpp:37-75", "src/ellipsoid.cpp:36-46"]}
{"id": "C156", "title": "Ko's method at the vertex of a curved surface", "statement": "If the surface is a quadratic graph over its tangent plane at the starting point and the ray lies in a plane through the surface normal there, ko_method returns the nearest intersection within the bounds exactly: both surface parameters and the ray parameter, in the second loop body and without a random restart.", "quantifier": "for all quadratic surfaces with any second derivatives, all orthonormal frames, all rays in normal planes, all bounds that contain an intersection", "why_tests_cant": "A statement about every curved surface of second order and every ray in a normal plane; a test tries a few surfaces and would accept a method that only creeps towards the point.", "anchors": ["include/drt/ko_method.hpp:56-234"]}
{"id": "C157", "title": "The condition number of a hit on the helicoid", "statement": "helicoid::hit stores a condition number, which helicoid.cpp paints. Times the largest of u, v and t it is the norm that tells how fast the parameters of the intersection move when the target point moves: no parameter moves faster than the condition number times the largest of u, v and t times the largest coordinate of the velocity.", "quantifier": "for all helicoids, all rays, all hits at which the ray does not touch the surface", "why_tests_cant": "A statement about all first-order perturbations at every hit; a test compares a few stored numbers.", "anchors": ["include/drt/helicoid.hpp:461-471", "include/drt/matrix.hpp:50-59"]}
{"id": "C158", "title": "The width of an interval", "statement": "width() of an interval is the greatest distance of two of its members; it is never negative, and an interval inside another is not wider. Sums and differences add the widths, and the interval computed for an expression of any size becomes narrow in proportion to the intervals of its variables.", "quantifier": "for all intervals, bounded or not, all expressions of any size, all bounded regions", "why_tests_cant": "A statement about all pairs of members and all expressions, with one constant for infinitely many boxes; a test evaluates a few expressions on a few boxes.", "anchors": ["include/drt/interval.hpp:39-41", "include/drt/interval.hpp:86-127", "include/drt/interval.hpp:162-171", "include/drt/interval.hpp:195-205"]}
{"id": "C159", "title": "Where the searches in one dimension end up", "statement": "For a continuous function, newton(f, tmin, tmax) and halley(f, tmin, tmax) return a point of small residual or a point within one scanning step (an eighth of the range, at most 1) of a zero; newton returns NaN only if f has one sign at all places that the fallback looks at, and never an infinity. If f changes sign over a range of length at most 8, newton ends and returns such a number.", "quantifier": "for all continuous functions, all ranges, all numbers of iterations", "why_tests_cant": "Quantifies over all continuous functions and over the histories of the iteration; the fallback is entered only for functions that tests do not use.", "anchors": ["include/drt/newton.hpp:18-68", "include/drt/halley.hpp:19-82", "include/drt/roots.hpp:262-316"]}
{"id": "C160", "title": "The blue cylinder is in the picture and lit by the lamp", "statement": "The picture of cylinder.cpp shows the whole cylinder and not the lamp. Every point of the wall that faces the camera and has part of the lamp in sight is lit.", "quantifier": "for every point of the wall, every state of the generator and every recursion depth", "why_tests_cant": "The picture shows some black and some blue pixels; it does not show whether black pixels are bad luck of sixteen samples or black with certainty, nor what lies beyond its edges.", "anchors": ["src/cylinder.cpp:23-37", "src/cylinder.cpp:40-56", "include/drt/cylinder.hpp:73-127", "include/drt/lambertian.hpp:23-52"]}
