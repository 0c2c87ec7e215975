import Verif.Props.AddOrbit
import Verif.Props.Amuse
import Verif.Props.Analysis
import Verif.Props.AstropyTable
import Verif.Props.Binary
import Verif.Props.Bins
import Verif.Props.Bins2
import Verif.Props.Centre
import Verif.Props.Centre2
import Verif.Props.Centre3
import Verif.Props.CentreMethods
import Verif.Props.Concentration
import Verif.Props.Convert
import Verif.Props.Coords
import Verif.Props.CoreRadius
import Verif.Props.CoreRadius2
import Verif.Props.Crash
import Verif.Props.DensityRadius
import Verif.Props.DensityRadius2
import Verif.Props.DensityRadius3
import Verif.Props.DensityRadius4
import Verif.Props.DensityRadius5
import Verif.Props.Energy
import Verif.Props.Energy2
import Verif.Props.Eta
import Verif.Props.Eta2
import Verif.Props.Eta3
import Verif.Props.Eta4
import Verif.Props.Evolution
import Verif.Props.FortOut
import Verif.Props.FortOut2
import Verif.Props.Galpydf
import Verif.Props.Grav
import Verif.Props.Gyr
import Verif.Props.Gyr2
import Verif.Props.Gyr3
import Verif.Props.Gyr4
import Verif.Props.Gyr5
import Verif.Props.Gyr6
import Verif.Props.GyrOut
import Verif.Props.IO
import Verif.Props.IO2
import Verif.Props.IO3
import Verif.Props.Ids
import Verif.Props.Interp
import Verif.Props.Interp2
import Verif.Props.Interp3
import Verif.Props.InterpScales
import Verif.Props.InterpSky
import Verif.Props.InterpSteps
import Verif.Props.Lagrange
import Verif.Props.Light
import Verif.Props.Limepy
import Verif.Props.LimepySample
import Verif.Props.MassFunction
import Verif.Props.MassFunction2
import Verif.Props.MassFunction3
import Verif.Props.Methods
import Verif.Props.Mutate
import Verif.Props.Mutate2
import Verif.Props.Nbody6
import Verif.Props.Nbody6b
import Verif.Props.Nbody6c
import Verif.Props.Nbody6pp
import Verif.Props.Nbody6pp2
import Verif.Props.Nbody6ppEv
import Verif.Props.Nbody6ppEv2
import Verif.Props.Nbody6ppEv3
import Verif.Props.Nbody6ppH5
import Verif.Props.Nbody6ppH5b
import Verif.Props.Nbody6ppH5c
import Verif.Props.Nbody6ppH5d
import Verif.Props.Nbody6ppH5e
import Verif.Props.Neighbours
import Verif.Props.NumberDensity
import Verif.Props.OrbitArg
import Verif.Props.Orbits
import Verif.Props.PathMatch
import Verif.Props.PathMethods
import Verif.Props.PathMethods2
import Verif.Props.Plots
import Verif.Props.Profiles
import Verif.Props.Profiles2
import Verif.Props.Profiles3
import Verif.Props.Recipes
import Verif.Props.Recipes2
import Verif.Props.Relax
import Verif.Props.ResetScale
import Verif.Props.Rotation
import Verif.Props.Saved
import Verif.Props.Session
import Verif.Props.Sky
import Verif.Props.SkyAnalysis
import Verif.Props.SkyFirst
import Verif.Props.SkyFirst2
import Verif.Props.SkyPath
import Verif.Props.SkyPlane
import Verif.Props.SkySession
import Verif.Props.SkyTail
import Verif.Props.SkyTidal
import Verif.Props.SlopeProf
import Verif.Props.SlopeProf2
import Verif.Props.SlopeProf3
import Verif.Props.SlopeProf4
import Verif.Props.SlopeProf5
import Verif.Props.SlopeProf6
import Verif.Props.Snapout
import Verif.Props.Stars
import Verif.Props.Stars2
import Verif.Props.Stars3
import Verif.Props.Stored
import Verif.Props.SubCentre
import Verif.Props.SubReset
import Verif.Props.Subset
import Verif.Props.Subset2
import Verif.Props.Subset3
import Verif.Props.Subset4
import Verif.Props.Tails
import Verif.Props.Tails2
import Verif.Props.TailsDemo
import Verif.Props.Tapered
import Verif.Props.Tidal
import Verif.Props.Units
import Verif.Props.Vcirc
import Verif.Props.Virial
import Verif.Props.VirialCrit
import Verif.Props.VirialCrit2
