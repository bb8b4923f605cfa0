import Verif.Props.Vec
import Verif.Props.Matrix
import Verif.Props.Roots
import Verif.Props.Pcg
import Verif.Props.Bounds
import Verif.Props.HitRecord
import Verif.Props.HittableList
import Verif.Props.Aabb
import Verif.Props.Bvh
import Verif.Props.Interval
import Verif.Props.Sphere
import Verif.Props.Ellipsoid
import Verif.Props.Rect
import Verif.Props.Disk
import Verif.Props.Cylinder
import Verif.Props.Torus
import Verif.Props.Newton
import Verif.Props.NewtonExact
import Verif.Props.Ko
import Verif.Props.NewtonFinite
import Verif.Props.Enneper
import Verif.Props.Helicoid
import Verif.Props.Medium
import Verif.Props.Lambertian
import Verif.Props.Material
import Verif.Props.RayColor
import Verif.Props.Camera
import Verif.Props.RenderStores
import Verif.Props.Png
import Verif.Props.Render
import Verif.Props.ColorMaps
import Verif.Props.Fractal
import Verif.Props.FractalHalley
import Verif.Props.RoundingError
import Verif.Model.Scenes
import Verif.Props.SceneColors
import Verif.Props.Box
import Verif.Props.Views
import Verif.Props.ImageSize
import Verif.Props.RandomSpheres
import Verif.Props.Convergence
import Verif.Props.ConvergenceN
import Verif.Props.KoPlane
import Verif.Props.Areas
import Verif.Props.TorusRounding
import Verif.Props.SurfaceRounding
import Verif.Props.NanHits
import Verif.Props.Acne
import Verif.Model.Programs
import Verif.Props.Programs
import Verif.Props.Light
import Verif.Props.Picture
import Verif.Props.Lambert
import Verif.Props.Translate
import Verif.Props.BvhCost
import Verif.Props.Fog
import Verif.Props.FarFog
import Verif.Props.Glass
import Verif.Props.Order
import Verif.Props.Holes
import Verif.Props.Threads
import Verif.Props.Residuals
import Verif.Props.TorusRefine
import Verif.Props.Animation
import Verif.Props.EnneperUndefined
import Verif.Props.EnneperBox
import Verif.Props.HelicoidBox
import Verif.Props.Surfaces
import Verif.Props.Normals
import Verif.Props.MeanCurvature
import Verif.Props.Independence
import Verif.Props.Invisible
import Verif.Props.HelicoidWindow
import Verif.Props.MediumBox
import Verif.Props.Edges
import Verif.Props.HelicoidRays
import Verif.Props.IntervalExpr
import Verif.Props.GlassBall
import Verif.Props.MirrorRoom
import Verif.Props.Chance
import Verif.Props.Sampling
import Verif.Props.TorusGhost
import Verif.Props.Turn
import Verif.Props.Scale
import Verif.Props.ScaleCylinder
import Verif.Props.ScaleBvh
import Verif.Props.TranslateTree
import Verif.Props.RandomScene
import Verif.Props.FoggyGlass
import Verif.Props.HelicoidPicture
import Verif.Props.Framing
import Verif.Props.FogSequence
import Verif.Props.KoQuadric
import Verif.Props.ConditionNumber
import Verif.Props.IntervalWidth
import Verif.Props.Fallback
import Verif.Props.CylinderPicture
import Verif.Tests.UnitTests
