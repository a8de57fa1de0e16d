import Verif.Props.Compose
import Verif.Props.Cardinal
import Verif.Props.Groups
import Verif.Props.Cut
import Verif.Props.Trace
import Verif.Props.Flip
import Verif.Props.FlipTwice
import Verif.Props.Imaging
import Verif.Props.Derived
import Verif.Props.Beam
import Verif.Props.Rays
import Verif.Props.Sources
import Verif.Props.Components
import Verif.Props.Display
import Verif.Props.SubPath
import Verif.Props.Preferences
import Verif.Props.Materials
import Verif.Props.Zemax
import Verif.Props.Lenses
import Verif.Props.Figure
import Verif.Props.Shows
import Verif.Props.Lines
import Verif.Props.Efficiency
import Verif.Props.Images
import Verif.Props.Marks
import Verif.Props.Graphics
import Verif.Props.Chromatic
import Verif.Props.Canvas
import Verif.Props.Outline
import Verif.Props.Objective
import Verif.Props.Stops
import Verif.Props.Modes
import Verif.Props.LaserDisplay
import Verif.Props.Sharing
import Verif.Props.Behind
import Verif.Props.Catalogue
import Verif.Props.Dispersion
import Verif.Props.ObjectiveNA
import Verif.Props.Rounded
import Verif.Props.RoundedMatrix
import Verif.Props.RoundedStop
import Verif.Props.RoundedImaging
import Verif.Props.StopsThick
import Verif.Props.Profile
import Verif.Props.CatalogueNames
import Verif.Props.Text
import Verif.Props.Command
import Verif.Props.Binary64
import Verif.Props.Viewer
import Verif.Props.Binary64Matrix
import Verif.Props.RoundedMedia
import Verif.Props.Folded
import Verif.Props.RoundedAperture
import Verif.Props.RoundedPosition
import Verif.Props.RoundedChief
import Verif.Props.Defaults
import Verif.Props.BeamObjects
import Verif.Props.FieldRays
import Verif.Props.TraceNested
import Verif.Props.TraceApart
import Verif.Props.Fan
import Verif.Props.Lamps
import Verif.Props.TraceEdits
import Verif.Props.Diameter
import Verif.Props.Iterating
import Verif.Props.RoundedCavity
import Verif.Props.RoundedBend
import Verif.Props.RoundedField
import Verif.Props.RoundedInvariant
import Verif.Props.RoundedCardinal
import Verif.Props.RoundedMagnification
import Verif.Props.RoundedMediaInvariant
import Verif.Props.RoundedSpeed
import Verif.Props.Binary64Field
import Verif.Props.RoundedSize
import Verif.Props.Import
import Verif.Props.FlipFloat
import Verif.Props.FlipMirrored
import Verif.Props.SaveFile
import Verif.Props.RoundedFan
import Verif.Props.RoundedModes
import Verif.Props.FloatIndex
import Verif.Props.FloatLens
import Verif.Props.FloatShifts
import Verif.Props.FloatFind
import Verif.Props.RoundedConjugates
import Verif.Props.RoundedHistogram
import Verif.Props.RoundedConjugatesFound
import Verif.Props.RoundedAxicon
import Verif.Props.RoundedZemax
import Verif.Props.RoundedLamps
import Verif.Props.EmptySources
import Verif.Props.RoundedRandom
import Verif.Props.RoundedLength
import Verif.Props.Binary64Length
import Verif.Props.Symmetry
import Verif.Props.Units
import Verif.Props.UnitsAccepted
import Verif.Props.UnitsRounded
import Verif.Audit
