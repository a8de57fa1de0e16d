import Verif.Props.Compose
import Verif.Props.Cardinal
import Verif.Props.Groups
import Verif.Props.Cut
import Verif.Props.Trace
import Verif.Props.Flip
import Verif.Props.FlipTwice
import Verif.Props.Imaging
import Verif.Props.Derived
import Verif.Props.Beam
import Verif.Props.Rays
import Verif.Props.Sources
import Verif.Props.Components
import Verif.Props.Display
import Verif.Props.SubPath
import Verif.Props.Preferences
import Verif.Props.Materials
import Verif.Props.Zemax
import Verif.Props.Lenses
import Verif.Props.Figure
import Verif.Props.Shows
import Verif.Props.Lines
import Verif.Props.Efficiency
import Verif.Props.Images
import Verif.Props.Marks
import Verif.Props.Graphics
import Verif.Props.Chromatic
import Verif.Props.Canvas
import Verif.Props.Outline
import Verif.Props.Objective
import Verif.Props.Stops
import Verif.Props.Modes
import Verif.Props.LaserDisplay
import Verif.Props.Sharing
import Verif.Props.Behind
import Verif.Props.Catalogue
import Verif.Props.Dispersion
import Verif.Props.ObjectiveNA
import Verif.Props.Rounded
import Verif.Props.RoundedMatrix
import Verif.Props.RoundedStop
import Verif.Props.RoundedImaging
import Verif.Props.StopsThick
import Verif.Props.Profile
import Verif.Props.CatalogueNames
import Verif.Props.Text
import Verif.Props.Command
import Verif.Props.Binary64
import Verif.Props.Viewer
import Verif.Props.Binary64Matrix
import Verif.Props.RoundedMedia
import Verif.Props.Folded
import Verif.Props.RoundedAperture
import Verif.Props.RoundedPosition
import Verif.Props.RoundedChief
import Verif.Props.Defaults
import Verif.Props.BeamObjects
import Verif.Props.FieldRays
import Verif.Props.TraceNested
import Verif.Props.TraceApart
import Verif.Props.Fan
import Verif.Props.Lamps
import Verif.Props.TraceEdits
import Verif.Props.Diameter
import Verif.Props.Iterating
import Verif.Props.RoundedCavity
import Verif.Props.RoundedBend
import Verif.Props.RoundedField
import Verif.Props.RoundedInvariant
import Verif.Props.RoundedCardinal
import Verif.Props.RoundedMagnification
import Verif.Props.RoundedMediaInvariant
import Verif.Props.RoundedSpeed
import Verif.Props.Binary64Field
import Verif.Props.RoundedSize
import Verif.Props.Import
import Verif.Props.FlipFloat
import Verif.Props.FlipMirrored
import Verif.Props.SaveFile
import Verif.Props.RoundedFan
import Verif.Props.RoundedModes
import Verif.Props.FloatIndex
import Verif.Props.FloatLens
import Verif.Props.FloatShifts
import Verif.Props.FloatFind
import Verif.Props.RoundedConjugates
import Verif.Props.RoundedHistogram
import Verif.Props.RoundedConjugatesFound
import Verif.Props.RoundedAxicon
import Verif.Props.RoundedZemax
import Verif.Props.RoundedLamps
import Verif.Props.EmptySources
import Verif.Props.RoundedRandom
import Verif.Props.RoundedLength
import Verif.Props.Binary64Length
import Verif.Props.Symmetry
import Verif.Props.Units
import Verif.Props.UnitsAccepted
import Verif.Props.UnitsRounded

/-! # The axioms of the theorems

Written by `tools/audit.py`. The build fails if a theorem of the manifest depends on another axiom than those written here. -/

/-- info: 'RT.C01_ray' depends on axioms: [propext, Classical.choice, Quot.sound] -/
#guard_msgs (whitespace := lax) in
#print axioms RT.C01_ray
/-- info: 'RT.C01_matrix' depends on axioms: [propext, Classical.choice, Quot.sound] -/
#guard_msgs (whitespace := lax) in
#print axioms RT.C01_matrix
/-- info: 'RT.C01_assoc' depends on axioms: [propext, Classical.choice, Quot.sound] -/
#guard_msgs (whitespace := lax) in
#print axioms RT.C01_assoc
/-- info: 'RT.C02_pair' depends on axioms: [propext, Classical.choice, Quot.sound] -/
#guard_msgs (whitespace := lax) in
#print axioms RT.C02_pair
/-- info: 'RT.C02_chain' depends on axioms: [propext, Classical.choice, Quot.sound] -/
#guard_msgs (whitespace := lax) in
#print axioms RT.C02_chain
/-- info: 'RT.C03_accepts_iff' depends on axioms: [propext, Classical.choice, Quot.sound] -/
#guard_msgs (whitespace := lax) in
#print axioms RT.C03_accepts_iff
/-- info: 'RT.C03_errors' depends on axioms: [propext, Classical.choice, Quot.sound] -/
#guard_msgs (whitespace := lax) in
#print axioms RT.C03_errors
/-- info: 'RT.C03_stores' depends on axioms: [propext, Classical.choice, Quot.sound] -/
#guard_msgs (whitespace := lax) in
#print axioms RT.C03_stores
/-- info: 'RT.C03_lens' depends on axioms: [propext, Classical.choice, Quot.sound] -/
#guard_msgs (whitespace := lax) in
#print axioms RT.C03_lens
/-- info: 'RT.C03_space' depends on axioms: [propext, Classical.choice, Quot.sound] -/
#guard_msgs (whitespace := lax) in
#print axioms RT.C03_space
/-- info: 'RT.C04_pair' depends on axioms: [propext, Classical.choice, Quot.sound] -/
#guard_msgs (whitespace := lax) in
#print axioms RT.C04_pair
/-- info: 'RT.C04_chain_partial' depends on axioms: [propext, Classical.choice, Quot.sound] -/
#guard_msgs (whitespace := lax) in
#print axioms RT.C04_chain_partial
/-- info: 'RT.C04_identity_index_violated' depends on axioms: [propext, Classical.choice, Quot.sound] -/
#guard_msgs (whitespace := lax) in
#print axioms RT.C04_identity_index_violated
/-- info: 'RT.C05_blocked_iff' depends on axioms: [propext, Quot.sound] -/
#guard_msgs (whitespace := lax) in
#print axioms RT.C05_blocked_iff
/-- info: 'RT.C05_blocked_iff_exact' depends on axioms: [propext, Classical.choice, Quot.sound] -/
#guard_msgs (whitespace := lax) in
#print axioms RT.C05_blocked_iff_exact
/-- info: 'RT.C05_frozen' depends on axioms: [propext, Quot.sound] -/
#guard_msgs (whitespace := lax) in
#print axioms RT.C05_frozen
/-- info: 'RT.C06_blocked_tail' depends on axioms: [propext, Classical.choice, Quot.sound] -/
#guard_msgs (whitespace := lax) in
#print axioms RT.C06_blocked_tail
/-- info: 'RT.C06_through' depends on axioms: [propext, Classical.choice, Quot.sound] -/
#guard_msgs (whitespace := lax) in
#print axioms RT.C06_through
/-- info: 'RT.C07_trace_matrix' depends on axioms: [propext, Classical.choice, Quot.sound] -/
#guard_msgs (whitespace := lax) in
#print axioms RT.C07_trace_matrix
/-- info: 'RT.C08_positions' depends on axioms: [propext, Classical.choice, Quot.sound] -/
#guard_msgs (whitespace := lax) in
#print axioms RT.C08_positions
/-- info: 'RT.C08_first' depends on axioms: [propext, Classical.choice, Quot.sound] -/
#guard_msgs (whitespace := lax) in
#print axioms RT.C08_first
/-- info: 'RT.C09_violated' depends on axioms: [propext, Quot.sound] -/
#guard_msgs (whitespace := lax) in
#print axioms RT.C09_violated
/-- info: 'RT.C09_violated_example' depends on axioms: [propext, Classical.choice, Quot.sound] -/
#guard_msgs (whitespace := lax) in
#print axioms RT.C09_violated_example
/-- info: 'RT.C10_values_partial' depends on axioms: [propext, Classical.choice, Quot.sound] -/
#guard_msgs (whitespace := lax) in
#print axioms RT.C10_values_partial
/-- info: 'RT.C10_unchanged_partial' depends on axioms: [propext, Classical.choice, Quot.sound] -/
#guard_msgs (whitespace := lax) in
#print axioms RT.C10_unchanged_partial
/-- info: 'RT.C10_violated' depends on axioms: [propext, Classical.choice, Quot.sound] -/
#guard_msgs (whitespace := lax) in
#print axioms RT.C10_violated
/-- info: 'RT.C10_violated_axicon' depends on axioms: [propext, Classical.choice, Quot.sound] -/
#guard_msgs (whitespace := lax) in
#print axioms RT.C10_violated_axicon
/-- info: 'RT.C11_session_partial' depends on axioms: [propext, Classical.choice, Quot.sound] -/
#guard_msgs (whitespace := lax) in
#print axioms RT.C11_session_partial
/-- info: 'RT.C11_violated_nested' depends on axioms: [propext, Classical.choice, Quot.sound] -/
#guard_msgs (whitespace := lax) in
#print axioms RT.C11_violated_nested
/-- info: 'RT.C11_violated_position' depends on axioms: [propext, Classical.choice, Quot.sound] -/
#guard_msgs (whitespace := lax) in
#print axioms RT.C11_violated_position
/-- info: 'RT.C11_violated_edit' depends on axioms: [propext, Classical.choice, Quot.sound] -/
#guard_msgs (whitespace := lax) in
#print axioms RT.C11_violated_edit
/-- info: 'RT.C11_apart_partial' depends on axioms: [propext, Classical.choice, Quot.sound] -/
#guard_msgs (whitespace := lax) in
#print axioms RT.C11_apart_partial
/-- info: 'RT.C11_recalled' depends on axioms: [propext, Quot.sound] -/
#guard_msgs (whitespace := lax) in
#print axioms RT.C11_recalled
/-- info: 'RT.C11_edits_partial' depends on axioms: [propext, Classical.choice, Quot.sound] -/
#guard_msgs (whitespace := lax) in
#print axioms RT.C11_edits_partial
/-- info: 'RT.C11_settled_partial' depends on axioms: [propext, Classical.choice, Quot.sound] -/
#guard_msgs (whitespace := lax) in
#print axioms RT.C11_settled_partial
/-- info: 'RT.C11_append' depends on axioms: [propext, Classical.choice, Quot.sound] -/
#guard_msgs (whitespace := lax) in
#print axioms RT.C11_append
/-- info: 'RT.C11_stale' depends on axioms: [propext, Classical.choice, Quot.sound] -/
#guard_msgs (whitespace := lax) in
#print axioms RT.C11_stale
/-- info: 'RT.C11_nested_partial' depends on axioms: [propext, Classical.choice, Quot.sound] -/
#guard_msgs (whitespace := lax) in
#print axioms RT.C11_nested_partial
/-- info: 'RT.C12_filter_partial' depends on axioms: [propext, Classical.choice, Quot.sound] -/
#guard_msgs (whitespace := lax) in
#print axioms RT.C12_filter_partial
/-- info: 'RT.C12_violated' depends on axioms: [propext, Classical.choice, Quot.sound] -/
#guard_msgs (whitespace := lax) in
#print axioms RT.C12_violated
/-- info: 'RT.C12_apart_partial' depends on axioms: [propext, Classical.choice, Quot.sound] -/
#guard_msgs (whitespace := lax) in
#print axioms RT.C12_apart_partial
/-- info: 'RT.C12_nested_partial' depends on axioms: [propext, Classical.choice, Quot.sound] -/
#guard_msgs (whitespace := lax) in
#print axioms RT.C12_nested_partial
/-- info: 'RT.C13_parallel_partial' depends on axioms: [propext, Classical.choice, Quot.sound] -/
#guard_msgs (whitespace := lax) in
#print axioms RT.C13_parallel_partial
/-- info: 'RT.C13_violated' depends on axioms: [propext, Classical.choice, Quot.sound] -/
#guard_msgs (whitespace := lax) in
#print axioms RT.C13_violated
/-- info: 'RT.C13_apart_partial' depends on axioms: [propext, Classical.choice, Quot.sound] -/
#guard_msgs (whitespace := lax) in
#print axioms RT.C13_apart_partial
/-- info: 'RT.C13_nested_partial' depends on axioms: [propext, Classical.choice, Quot.sound] -/
#guard_msgs (whitespace := lax) in
#print axioms RT.C13_nested_partial
/-- info: 'RT.C14_product_partial' depends on axioms: [propext, Classical.choice, Quot.sound] -/
#guard_msgs (whitespace := lax) in
#print axioms RT.C14_product_partial
/-- info: 'RT.C14_vertices_partial' depends on axioms: [propext, Classical.choice, Quot.sound] -/
#guard_msgs (whitespace := lax) in
#print axioms RT.C14_vertices_partial
/-- info: 'RT.C14_pop_violated' depends on axioms: [propext, Classical.choice, Quot.sound] -/
#guard_msgs (whitespace := lax) in
#print axioms RT.C14_pop_violated
/-- info: 'RT.C14_reverse_violated' depends on axioms: [propext, Classical.choice, Quot.sound] -/
#guard_msgs (whitespace := lax) in
#print axioms RT.C14_reverse_violated
/-- info: 'RT.C15_caught_partial' depends on axioms: [propext, Classical.choice, Quot.sound] -/
#guard_msgs (whitespace := lax) in
#print axioms RT.C15_caught_partial
/-- info: 'RT.C15_run' depends on axioms: [propext, Classical.choice, Quot.sound] -/
#guard_msgs (whitespace := lax) in
#print axioms RT.C15_run
/-- info: 'RT.C15_append' depends on axioms: [propext, Classical.choice, Quot.sound] -/
#guard_msgs (whitespace := lax) in
#print axioms RT.C15_append
/-- info: 'RT.C15_slice_violated' depends on axioms: [propext, Classical.choice, Quot.sound] -/
#guard_msgs (whitespace := lax) in
#print axioms RT.C15_slice_violated
/-- info: 'RT.C15_reverse_violated' depends on axioms: [propext, Classical.choice, Quot.sound] -/
#guard_msgs (whitespace := lax) in
#print axioms RT.C15_reverse_violated
/-- info: 'RT.C16_append' depends on axioms: [propext, Classical.choice, Quot.sound] -/
#guard_msgs (whitespace := lax) in
#print axioms RT.C16_append
/-- info: 'RT.C16_insert' depends on axioms: [propext, Classical.choice, Quot.sound] -/
#guard_msgs (whitespace := lax) in
#print axioms RT.C16_insert
/-- info: 'RT.C16_pop' depends on axioms: [propext, Classical.choice, Quot.sound] -/
#guard_msgs (whitespace := lax) in
#print axioms RT.C16_pop
/-- info: 'RT.C16_getItem' depends on axioms: [propext, Classical.choice, Quot.sound] -/
#guard_msgs (whitespace := lax) in
#print axioms RT.C16_getItem
/-- info: 'RT.C16_getSlice' depends on axioms: [propext, Classical.choice, Quot.sound] -/
#guard_msgs (whitespace := lax) in
#print axioms RT.C16_getSlice
/-- info: 'RT.C16_setItem_partial' depends on axioms: [propext, Classical.choice, Quot.sound] -/
#guard_msgs (whitespace := lax) in
#print axioms RT.C16_setItem_partial
/-- info: 'RT.C16_setItem_negative_violated' depends on axioms: [propext, Classical.choice, Quot.sound] -/
#guard_msgs (whitespace := lax) in
#print axioms RT.C16_setItem_negative_violated
/-- info: 'RT.C16_setSlice_partial' depends on axioms: [propext, Classical.choice, Quot.sound] -/
#guard_msgs (whitespace := lax) in
#print axioms RT.C16_setSlice_partial
/-- info: 'RT.C16_setSlice_violated' depends on axioms: [propext, Classical.choice, Quot.sound] -/
#guard_msgs (whitespace := lax) in
#print axioms RT.C16_setSlice_violated
/-- info: 'RT.C17_append_partial' depends on axioms: [propext, Classical.choice, Quot.sound] -/
#guard_msgs (whitespace := lax) in
#print axioms RT.C17_append_partial
/-- info: 'RT.C17_early_partial' depends on axioms: [propext, Classical.choice, Quot.sound] -/
#guard_msgs (whitespace := lax) in
#print axioms RT.C17_early_partial
/-- info: 'RT.C17_edit_violated' depends on axioms: [propext, Classical.choice, Quot.sound] -/
#guard_msgs (whitespace := lax) in
#print axioms RT.C17_edit_violated
/-- info: 'RT.C17_append_violated' depends on axioms: [propext, Classical.choice, Quot.sound] -/
#guard_msgs (whitespace := lax) in
#print axioms RT.C17_append_violated
/-- info: 'RT.C18_cut' depends on axioms: [propext, Classical.choice, Quot.sound] -/
#guard_msgs (whitespace := lax) in
#print axioms RT.C18_cut
/-- info: 'RT.C18_full' depends on axioms: [propext, Classical.choice, Quot.sound] -/
#guard_msgs (whitespace := lax) in
#print axioms RT.C18_full
/-- info: 'RT.C19_value_partial' depends on axioms: [propext, Classical.choice, Quot.sound] -/
#guard_msgs (whitespace := lax) in
#print axioms RT.C19_value_partial
/-- info: 'RT.C19_air_partial' depends on axioms: [propext, Classical.choice, Quot.sound] -/
#guard_msgs (whitespace := lax) in
#print axioms RT.C19_air_partial
/-- info: 'RT.C19_violated' depends on axioms: [propext, Classical.choice, Quot.sound] -/
#guard_msgs (whitespace := lax) in
#print axioms RT.C19_violated
/-- info: 'RT.C19_aperture_violated' depends on axioms: [propext, Classical.choice, Quot.sound] -/
#guard_msgs (whitespace := lax) in
#print axioms RT.C19_aperture_violated
/-- info: 'RT.C20_forwardConjugate' depends on axioms: [propext, Classical.choice, Quot.sound] -/
#guard_msgs (whitespace := lax) in
#print axioms RT.C20_forwardConjugate
/-- info: 'RT.C20_no_image' depends on axioms: [propext, Classical.choice, Quot.sound] -/
#guard_msgs (whitespace := lax) in
#print axioms RT.C20_no_image
/-- info: 'RT.C21_backwardConjugate_partial' depends on axioms: [propext, Classical.choice, Quot.sound] -/
#guard_msgs (whitespace := lax) in
#print axioms RT.C21_backwardConjugate_partial
/-- info: 'RT.C21_frontIndex_violated' depends on axioms: [propext, Classical.choice, Quot.sound] -/
#guard_msgs (whitespace := lax) in
#print axioms RT.C21_frontIndex_violated
/-- info: 'RT.C21_at_infinity' depends on axioms: [propext, Classical.choice, Quot.sound] -/
#guard_msgs (whitespace := lax) in
#print axioms RT.C21_at_infinity
/-- info: 'RT.C22_magnification' depends on axioms: [propext, Classical.choice, Quot.sound] -/
#guard_msgs (whitespace := lax) in
#print axioms RT.C22_magnification
/-- info: 'RT.C23_foci_partial' depends on axioms: [propext, Classical.choice, Quot.sound] -/
#guard_msgs (whitespace := lax) in
#print axioms RT.C23_foci_partial
/-- info: 'RT.C23_weak_power_violated' depends on axioms: [propext, Classical.choice, Quot.sound] -/
#guard_msgs (whitespace := lax) in
#print axioms RT.C23_weak_power_violated
/-- info: 'RT.C23_lens' depends on axioms: [propext, Classical.choice, Quot.sound] -/
#guard_msgs (whitespace := lax) in
#print axioms RT.C23_lens
/-- info: 'RT.C24_principal_planes' depends on axioms: [propext, Classical.choice, Quot.sound] -/
#guard_msgs (whitespace := lax) in
#print axioms RT.C24_principal_planes
/-- info: 'RT.C25_focal_lengths' depends on axioms: [propext, Classical.choice, Quot.sound] -/
#guard_msgs (whitespace := lax) in
#print axioms RT.C25_focal_lengths
/-- info: 'RT.C25_none_iff' depends on axioms: [propext, Classical.choice, Quot.sound] -/
#guard_msgs (whitespace := lax) in
#print axioms RT.C25_none_iff
/-- info: 'RT.C26_flip_twice_partial' depends on axioms: [propext, Classical.choice, Quot.sound] -/
#guard_msgs (whitespace := lax) in
#print axioms RT.C26_flip_twice_partial
/-- info: 'RT.C26_single' depends on axioms: [propext, Classical.choice, Quot.sound] -/
#guard_msgs (whitespace := lax) in
#print axioms RT.C26_single
/-- info: 'RT.C26_generic_violated' depends on axioms: [propext, Classical.choice, Quot.sound] -/
#guard_msgs (whitespace := lax) in
#print axioms RT.C26_generic_violated
/-- info: 'RT.C26_restored' depends on axioms: [propext, Classical.choice, Quot.sound] -/
#guard_msgs (whitespace := lax) in
#print axioms RT.C26_restored
/-- info: 'RT.C26_media_violated' depends on axioms: [propext, Classical.choice, Quot.sound] -/
#guard_msgs (whitespace := lax) in
#print axioms RT.C26_media_violated
/-- info: 'RT.C27_reversibility' depends on axioms: [propext, Classical.choice, Quot.sound] -/
#guard_msgs (whitespace := lax) in
#print axioms RT.C27_reversibility
/-- info: 'RT.C27_matrix' depends on axioms: [propext, Classical.choice, Quot.sound] -/
#guard_msgs (whitespace := lax) in
#print axioms RT.C27_matrix
/-- info: 'RT.C28_exchange_partial' depends on axioms: [propext, Classical.choice, Quot.sound] -/
#guard_msgs (whitespace := lax) in
#print axioms RT.C28_exchange_partial
/-- info: 'RT.C28_exact' depends on axioms: [propext, Classical.choice, Quot.sound] -/
#guard_msgs (whitespace := lax) in
#print axioms RT.C28_exact
/-- info: 'RT.C28_iff' depends on axioms: [propext, Classical.choice, Quot.sound] -/
#guard_msgs (whitespace := lax) in
#print axioms RT.C28_iff
/-- info: 'RT.C28_thickLens_violated' depends on axioms: [propext, Classical.choice, Quot.sound] -/
#guard_msgs (whitespace := lax) in
#print axioms RT.C28_thickLens_violated
/-- info: 'RT.C29_thickLens' depends on axioms: [propext, Classical.choice, Quot.sound] -/
#guard_msgs (whitespace := lax) in
#print axioms RT.C29_thickLens
/-- info: 'RT.C29_slab' depends on axioms: [propext, Classical.choice, Quot.sound] -/
#guard_msgs (whitespace := lax) in
#print axioms RT.C29_slab
/-- info: 'RT.C29_cut' depends on axioms: [propext, Classical.choice, Quot.sound] -/
#guard_msgs (whitespace := lax) in
#print axioms RT.C29_cut
/-- info: 'RT.C29_flip' depends on axioms: [propext, Classical.choice, Quot.sound] -/
#guard_msgs (whitespace := lax) in
#print axioms RT.C29_flip
/-- info: 'RT.C30_has' depends on axioms: [propext, Classical.choice, Quot.sound] -/
#guard_msgs (whitespace := lax) in
#print axioms RT.C30_has
/-- info: 'RT.C30_sessions' depends on axioms: [propext, Classical.choice, Quot.sound] -/
#guard_msgs (whitespace := lax) in
#print axioms RT.C30_sessions
/-- info: 'RT.C30_apertureStop_partial' depends on axioms: [propext, Classical.choice, Quot.sound] -/
#guard_msgs (whitespace := lax) in
#print axioms RT.C30_apertureStop_partial
/-- info: 'RT.C30_apertureStop_open_partial' depends on axioms: [propext, Classical.choice, Quot.sound] -/
#guard_msgs (whitespace := lax) in
#print axioms RT.C30_apertureStop_open_partial
/-- info: 'RT.C30_no_stop' depends on axioms: [propext, Classical.choice, Quot.sound] -/
#guard_msgs (whitespace := lax) in
#print axioms RT.C30_no_stop
/-- info: 'RT.C30_violated' depends on axioms: [propext, Classical.choice, Quot.sound] -/
#guard_msgs (whitespace := lax) in
#print axioms RT.C30_violated
/-- info: 'RT.C30_thick_violated' depends on axioms: [propext, Classical.choice, Quot.sound] -/
#guard_msgs (whitespace := lax) in
#print axioms RT.C30_thick_violated
/-- info: 'RT.C30_exits' depends on axioms: [propext, Classical.choice, Quot.sound] -/
#guard_msgs (whitespace := lax) in
#print axioms RT.C30_exits
/-- info: 'RT.C30_entrance_violated' depends on axioms: [propext, Classical.choice, Quot.sound] -/
#guard_msgs (whitespace := lax) in
#print axioms RT.C30_entrance_violated
/-- info: 'RT.C31_rays_partial' depends on axioms: [propext, Classical.choice, Quot.sound] -/
#guard_msgs (whitespace := lax) in
#print axioms RT.C31_rays_partial
/-- info: 'RT.C31_no_stop' depends on axioms: [propext, Classical.choice, Quot.sound] -/
#guard_msgs (whitespace := lax) in
#print axioms RT.C31_no_stop
/-- info: 'RT.C31_tolerance_violated' depends on axioms: [propext, Classical.choice, Quot.sound] -/
#guard_msgs (whitespace := lax) in
#print axioms RT.C31_tolerance_violated
/-- info: 'RT.C32_entrancePupil_partial' depends on axioms: [propext, Classical.choice, Quot.sound] -/
#guard_msgs (whitespace := lax) in
#print axioms RT.C32_entrancePupil_partial
/-- info: 'RT.C32_no_stop' depends on axioms: [propext, Classical.choice, Quot.sound] -/
#guard_msgs (whitespace := lax) in
#print axioms RT.C32_no_stop
/-- info: 'RT.C32_frontIndex_violated' depends on axioms: [propext, Classical.choice, Quot.sound] -/
#guard_msgs (whitespace := lax) in
#print axioms RT.C32_frontIndex_violated
/-- info: 'RT.C33_python_violated' depends on axioms: [propext, Classical.choice, Quot.sound] -/
#guard_msgs (whitespace := lax) in
#print axioms RT.C33_python_violated
/-- info: 'RT.C33_python_first_violated' depends on axioms: [propext, Classical.choice, Quot.sound] -/
#guard_msgs (whitespace := lax) in
#print axioms RT.C33_python_first_violated
/-- info: 'RT.C33_python_never_violated' depends on axioms: [propext, Classical.choice, Quot.sound] -/
#guard_msgs (whitespace := lax) in
#print axioms RT.C33_python_never_violated
/-- info: 'RT.C33_python_infinite_violated' depends on axioms: [propext, Classical.choice, Quot.sound] -/
#guard_msgs (whitespace := lax) in
#print axioms RT.C33_python_infinite_violated
/-- info: 'RT.C33_default' depends on axioms: [propext, Classical.choice, Quot.sound] -/
#guard_msgs (whitespace := lax) in
#print axioms RT.C33_default
/-- info: 'RT.C33_terminates_partial' depends on axioms: [propext, Classical.choice, Quot.sound] -/
#guard_msgs (whitespace := lax) in
#print axioms RT.C33_terminates_partial
/-- info: 'RT.C33_diverges_violated' depends on axioms: [propext, Classical.choice, Quot.sound] -/
#guard_msgs (whitespace := lax) in
#print axioms RT.C33_diverges_violated
/-- info: 'RT.C33_example_violated' depends on axioms: [propext, Classical.choice, Quot.sound] -/
#guard_msgs (whitespace := lax) in
#print axioms RT.C33_example_violated
/-- info: 'RT.C33_iff' depends on axioms: [propext, Classical.choice, Quot.sound] -/
#guard_msgs (whitespace := lax) in
#print axioms RT.C33_iff
/-- info: 'RT.C34_has' depends on axioms: [propext, Classical.choice, Quot.sound] -/
#guard_msgs (whitespace := lax) in
#print axioms RT.C34_has
/-- info: 'RT.C34_fieldStop_partial' depends on axioms: [propext, Classical.choice, Quot.sound] -/
#guard_msgs (whitespace := lax) in
#print axioms RT.C34_fieldStop_partial
/-- info: 'RT.C34_halfFieldOfView_partial' depends on axioms: [propext, Classical.choice, Quot.sound] -/
#guard_msgs (whitespace := lax) in
#print axioms RT.C34_halfFieldOfView_partial
/-- info: 'RT.C34_open' depends on axioms: [propext, Classical.choice, Quot.sound] -/
#guard_msgs (whitespace := lax) in
#print axioms RT.C34_open
/-- info: 'RT.C34_fieldStop_all' depends on axioms: [propext, Classical.choice, Quot.sound] -/
#guard_msgs (whitespace := lax) in
#print axioms RT.C34_fieldStop_all
/-- info: 'RT.C34_thick_violated' depends on axioms: [propext, Classical.choice, Quot.sound] -/
#guard_msgs (whitespace := lax) in
#print axioms RT.C34_thick_violated
/-- info: 'RT.C35_axialRay' depends on axioms: [propext, Classical.choice, Quot.sound] -/
#guard_msgs (whitespace := lax) in
#print axioms RT.C35_axialRay
/-- info: 'RT.C35_NA' depends on axioms: [propext, Classical.choice, Quot.sound] -/
#guard_msgs (whitespace := lax) in
#print axioms RT.C35_NA
/-- info: 'RT.C35_NA_violated' depends on axioms: [propext, Classical.choice, Quot.sound] -/
#guard_msgs (whitespace := lax) in
#print axioms RT.C35_NA_violated
/-- info: 'RT.C35_fieldOfView' depends on axioms: [propext, Classical.choice, Quot.sound] -/
#guard_msgs (whitespace := lax) in
#print axioms RT.C35_fieldOfView
/-- info: 'RT.C35_principalRay' depends on axioms: [propext, Classical.choice, Quot.sound] -/
#guard_msgs (whitespace := lax) in
#print axioms RT.C35_principalRay
/-- info: 'RT.C35_imageSize' depends on axioms: [propext, Classical.choice, Quot.sound] -/
#guard_msgs (whitespace := lax) in
#print axioms RT.C35_imageSize
/-- info: 'RT.C35_fNumber' depends on axioms: [propext, Classical.choice, Quot.sound] -/
#guard_msgs (whitespace := lax) in
#print axioms RT.C35_fNumber
/-- info: 'RT.C35_fNumber_violated' depends on axioms: [propext, Classical.choice, Quot.sound] -/
#guard_msgs (whitespace := lax) in
#print axioms RT.C35_fNumber_violated
/-- info: 'RT.C35_lagrangeInvariant_partial' depends on axioms: [propext, Classical.choice, Quot.sound] -/
#guard_msgs (whitespace := lax) in
#print axioms RT.C35_lagrangeInvariant_partial
/-- info: 'RT.C35_lagrangeInvariant' depends on axioms: [propext, Classical.choice, Quot.sound] -/
#guard_msgs (whitespace := lax) in
#print axioms RT.C35_lagrangeInvariant
/-- info: 'RT.C35_lagrangeInvariant_violated' depends on axioms: [propext, Classical.choice, Quot.sound] -/
#guard_msgs (whitespace := lax) in
#print axioms RT.C35_lagrangeInvariant_violated
/-- info: 'RT.C35_objectHeight' depends on axioms: [propext, Classical.choice, Quot.sound] -/
#guard_msgs (whitespace := lax) in
#print axioms RT.C35_objectHeight
/-- info: 'RT.C35_noHeight' depends on axioms: [propext, Classical.choice, Quot.sound] -/
#guard_msgs (whitespace := lax) in
#print axioms RT.C35_noHeight
/-- info: 'RT.C36_intermediateConjugates' depends on axioms: [propext, Classical.choice, Quot.sound] -/
#guard_msgs (whitespace := lax) in
#print axioms RT.C36_intermediateConjugates
/-- info: 'RT.C37_hasFinite' depends on axioms: [propext, Classical.choice, Quot.sound] -/
#guard_msgs (whitespace := lax) in
#print axioms RT.C37_hasFinite
/-- info: 'RT.C37_largestDiameter_partial' depends on axioms: [propext, Classical.choice, Quot.sound] -/
#guard_msgs (whitespace := lax) in
#print axioms RT.C37_largestDiameter_partial
/-- info: 'RT.C37_lens_violated' depends on axioms: [propext, Classical.choice, Quot.sound] -/
#guard_msgs (whitespace := lax) in
#print axioms RT.C37_lens_violated
/-- info: 'RT.C37_halfHeight' depends on axioms: [propext, Classical.choice, Quot.sound] -/
#guard_msgs (whitespace := lax) in
#print axioms RT.C37_halfHeight
/-- info: 'RT.C37_nested_violated' depends on axioms: [propext, Classical.choice, Quot.sound] -/
#guard_msgs (whitespace := lax) in
#print axioms RT.C37_nested_violated
/-- info: 'RT.C37_largestDiameter' depends on axioms: [propext, Classical.choice, Quot.sound] -/
#guard_msgs (whitespace := lax) in
#print axioms RT.C37_largestDiameter
/-- info: 'RT.C37_range' depends on axioms: [propext, Classical.choice, Quot.sound] -/
#guard_msgs (whitespace := lax) in
#print axioms RT.C37_range
/-- info: 'RT.C38_product' depends on axioms: [propext, Classical.choice, Quot.sound] -/
#guard_msgs (whitespace := lax) in
#print axioms RT.C38_product
/-- info: 'RT.C38_trace' depends on axioms: [propext, Classical.choice, Quot.sound] -/
#guard_msgs (whitespace := lax) in
#print axioms RT.C38_trace
/-- info: 'RT.C39_traced' depends on axioms: [propext, Classical.choice, Quot.sound] -/
#guard_msgs (whitespace := lax) in
#print axioms RT.C39_traced
/-- info: 'RT.C39_confined' depends on axioms: [propext, Classical.choice, Quot.sound] -/
#guard_msgs (whitespace := lax) in
#print axioms RT.C39_confined
/-- info: 'RT.C39_thin' depends on axioms: [propext, Classical.choice, Quot.sound] -/
#guard_msgs (whitespace := lax) in
#print axioms RT.C39_thin
/-- info: 'RT.C40_roundTrip' depends on axioms: [propext, Classical.choice, Quot.sound] -/
#guard_msgs (whitespace := lax) in
#print axioms RT.C40_roundTrip
/-- info: 'RT.C40_missing' depends on axioms: [propext, Classical.choice, Quot.sound] -/
#guard_msgs (whitespace := lax) in
#print axioms RT.C40_missing
/-- info: 'RT.C40_curvature' depends on axioms: [propext, Classical.choice, Quot.sound] -/
#guard_msgs (whitespace := lax) in
#print axioms RT.C40_curvature
/-- info: 'RT.C40_both' depends on axioms: [propext, Classical.choice, Quot.sound] -/
#guard_msgs (whitespace := lax) in
#print axioms RT.C40_both
/-- info: 'RT.C41_waist_partial' depends on axioms: [propext, Classical.choice, Quot.sound] -/
#guard_msgs (whitespace := lax) in
#print axioms RT.C41_waist_partial
/-- info: 'RT.C41_air' depends on axioms: [propext, Classical.choice, Quot.sound] -/
#guard_msgs (whitespace := lax) in
#print axioms RT.C41_air
/-- info: 'RT.C41_violated' depends on axioms: [propext, Classical.choice, Quot.sound] -/
#guard_msgs (whitespace := lax) in
#print axioms RT.C41_violated
/-- info: 'RT.C42_medium' depends on axioms: [propext, Quot.sound] -/
#guard_msgs (whitespace := lax) in
#print axioms RT.C42_medium
/-- info: 'RT.C42_axicon' depends on axioms: [propext, Quot.sound] -/
#guard_msgs (whitespace := lax) in
#print axioms RT.C42_axicon
/-- info: 'RT.C42_clipping' depends on axioms: [propext, Quot.sound] -/
#guard_msgs (whitespace := lax) in
#print axioms RT.C42_clipping
/-- info: 'RT.C42_trace' depends on axioms: [propext, Quot.sound] -/
#guard_msgs (whitespace := lax) in
#print axioms RT.C42_trace
/-- info: 'RT.C43_solutions' depends on axioms: [propext, Classical.choice, Quot.sound] -/
#guard_msgs (whitespace := lax) in
#print axioms RT.C43_solutions
/-- info: 'RT.C43_fixed_partial' depends on axioms: [propext, Classical.choice, Quot.sound] -/
#guard_msgs (whitespace := lax) in
#print axioms RT.C43_fixed_partial
/-- info: 'RT.C43_violated' depends on axioms: [propext, Classical.choice, Quot.sound] -/
#guard_msgs (whitespace := lax) in
#print axioms RT.C43_violated
/-- info: 'RT.C43_laserModes' depends on axioms: [propext, Classical.choice, Quot.sound] -/
#guard_msgs (whitespace := lax) in
#print axioms RT.C43_laserModes
/-- info: 'RT.C43_confined' depends on axioms: [propext, Classical.choice, Quot.sound] -/
#guard_msgs (whitespace := lax) in
#print axioms RT.C43_confined
/-- info: 'RT.C43_roundTrip' depends on axioms: [propext, Classical.choice, Quot.sound] -/
#guard_msgs (whitespace := lax) in
#print axioms RT.C43_roundTrip
/-- info: 'RT.C44_stable_partial' depends on axioms: [propext, Classical.choice, Quot.sound] -/
#guard_msgs (whitespace := lax) in
#print axioms RT.C44_stable_partial
/-- info: 'RT.C44_noPower' depends on axioms: [propext, Classical.choice, Quot.sound] -/
#guard_msgs (whitespace := lax) in
#print axioms RT.C44_noPower
/-- info: 'RT.C44_violated' depends on axioms: [propext, Classical.choice, Quot.sound] -/
#guard_msgs (whitespace := lax) in
#print axioms RT.C44_violated
/-- info: 'RT.C45_fan' depends on axioms: [propext, Classical.choice, Quot.sound] -/
#guard_msgs (whitespace := lax) in
#print axioms RT.C45_fan
/-- info: 'RT.C45_fanGroup' depends on axioms: [propext, Classical.choice, Quot.sound] -/
#guard_msgs (whitespace := lax) in
#print axioms RT.C45_fanGroup
/-- info: 'RT.C45_refused' depends on axioms: [propext, Classical.choice, Quot.sound] -/
#guard_msgs (whitespace := lax) in
#print axioms RT.C45_refused
/-- info: 'RT.C45_spaced' depends on axioms: [propext, Classical.choice, Quot.sound] -/
#guard_msgs (whitespace := lax) in
#print axioms RT.C45_spaced
/-- info: 'RT.C46_uniform_partial' depends on axioms: [propext, Classical.choice, Quot.sound] -/
#guard_msgs (whitespace := lax) in
#print axioms RT.C46_uniform_partial
/-- info: 'RT.C46_single' depends on axioms: [propext, Classical.choice, Quot.sound] -/
#guard_msgs (whitespace := lax) in
#print axioms RT.C46_single
/-- info: 'RT.C46_violated' depends on axioms: [propext, Classical.choice, Quot.sound] -/
#guard_msgs (whitespace := lax) in
#print axioms RT.C46_violated
/-- info: 'RT.C46_refused' depends on axioms: [propext, Classical.choice, Quot.sound] -/
#guard_msgs (whitespace := lax) in
#print axioms RT.C46_refused
/-- info: 'RT.C46_sources' depends on axioms: [propext, Classical.choice, Quot.sound] -/
#guard_msgs (whitespace := lax) in
#print axioms RT.C46_sources
/-- info: 'RT.C46_lamp_heights' depends on axioms: [propext, Quot.sound] -/
#guard_msgs (whitespace := lax) in
#print axioms RT.C46_lamp_heights
/-- info: 'RT.C47_reach_partial' depends on axioms: [propext, Classical.choice, Quot.sound] -/
#guard_msgs (whitespace := lax) in
#print axioms RT.C47_reach_partial
/-- info: 'RT.C47_stopped' depends on axioms: [propext, Classical.choice, Quot.sound] -/
#guard_msgs (whitespace := lax) in
#print axioms RT.C47_stopped
/-- info: 'RT.C47_at' depends on axioms: [propext, Quot.sound] -/
#guard_msgs (whitespace := lax) in
#print axioms RT.C47_at
/-- info: 'RT.C47_along_partial' depends on axioms: [propext, Classical.choice, Quot.sound] -/
#guard_msgs (whitespace := lax) in
#print axioms RT.C47_along_partial
/-- info: 'RT.C47_empty' depends on axioms: [propext, Quot.sound] -/
#guard_msgs (whitespace := lax) in
#print axioms RT.C47_empty
/-- info: 'RT.C47_violated_end' depends on axioms: [propext, Quot.sound] -/
#guard_msgs (whitespace := lax) in
#print axioms RT.C47_violated_end
/-- info: 'RT.C47_violated_inside' depends on axioms: [propext, Classical.choice, Quot.sound] -/
#guard_msgs (whitespace := lax) in
#print axioms RT.C47_violated_inside
/-- info: 'RT.Rays.C48_empty' depends on axioms: [propext, Classical.choice, Quot.sound] -/
#guard_msgs (whitespace := lax) in
#print axioms RT.Rays.C48_empty
/-- info: 'RT.C48_empty_example' depends on axioms: [propext, Classical.choice, Quot.sound] -/
#guard_msgs (whitespace := lax) in
#print axioms RT.C48_empty_example
/-- info: 'RT.Rays.C48_histories_partial' depends on axioms: [propext, Classical.choice, Quot.sound] -/
#guard_msgs (whitespace := lax) in
#print axioms RT.Rays.C48_histories_partial
/-- info: 'RT.Rays.C48_length' depends on axioms: [propext] -/
#guard_msgs (whitespace := lax) in
#print axioms RT.Rays.C48_length
/-- info: 'RT.Rays.C48_violated_load' depends on axioms: [propext] -/
#guard_msgs (whitespace := lax) in
#print axioms RT.Rays.C48_violated_load
/-- info: 'RT.Rays.C48_violated_refused' depends on axioms: [propext, Classical.choice, Quot.sound] -/
#guard_msgs (whitespace := lax) in
#print axioms RT.Rays.C48_violated_refused
/-- info: 'RT.C49_contains' depends on axioms: [propext, Classical.choice, Quot.sound] -/
#guard_msgs (whitespace := lax) in
#print axioms RT.C49_contains
/-- info: 'RT.C49_contains_loop_partial' depends on axioms: [propext, Classical.choice, Quot.sound] -/
#guard_msgs (whitespace := lax) in
#print axioms RT.C49_contains_loop_partial
/-- info: 'RT.C49_violated_contains' depends on axioms: [propext, Classical.choice, Quot.sound] -/
#guard_msgs (whitespace := lax) in
#print axioms RT.C49_violated_contains
/-- info: 'RT.C49_violated_zip' depends on axioms: [propext, Classical.choice, Quot.sound] -/
#guard_msgs (whitespace := lax) in
#print axioms RT.C49_violated_zip
/-- info: 'RT.C49_loop_partial' depends on axioms: [propext, Classical.choice, Quot.sound] -/
#guard_msgs (whitespace := lax) in
#print axioms RT.C49_loop_partial
/-- info: 'RT.C49_violated_nested' depends on axioms: [propext, Classical.choice, Quot.sound] -/
#guard_msgs (whitespace := lax) in
#print axioms RT.C49_violated_nested
/-- info: 'RT.C49_violated_query' depends on axioms: [propext] -/
#guard_msgs (whitespace := lax) in
#print axioms RT.C49_violated_query
/-- info: 'RT.C49_group_partial' depends on axioms: [propext, Classical.choice, Quot.sound] -/
#guard_msgs (whitespace := lax) in
#print axioms RT.C49_group_partial
/-- info: 'RT.C49_violated_group' depends on axioms: [propext, Classical.choice, Quot.sound] -/
#guard_msgs (whitespace := lax) in
#print axioms RT.C49_violated_group
/-- info: 'RT.RandomRays.C50_stable' depends on axioms: [propext, Classical.choice, Quot.sound] -/
#guard_msgs (whitespace := lax) in
#print axioms RT.RandomRays.C50_stable
/-- info: 'RT.RandomRays.C50_iterate' depends on axioms: [propext, Classical.choice, Quot.sound] -/
#guard_msgs (whitespace := lax) in
#print axioms RT.RandomRays.C50_iterate
/-- info: 'RT.RandomRays.C50_next' depends on axioms: [propext, Classical.choice, Quot.sound] -/
#guard_msgs (whitespace := lax) in
#print axioms RT.RandomRays.C50_next
/-- info: 'RT.C50_bounds_uniform' depends on axioms: [propext, Classical.choice, Quot.sound] -/
#guard_msgs (whitespace := lax) in
#print axioms RT.C50_bounds_uniform
/-- info: 'RT.C50_bounds_lambertian' depends on axioms: [propext, Classical.choice, Quot.sound] -/
#guard_msgs (whitespace := lax) in
#print axioms RT.C50_bounds_lambertian
/-- info: 'RT.C50_bounds_gaussian' depends on axioms: [propext, Classical.choice, Quot.sound] -/
#guard_msgs (whitespace := lax) in
#print axioms RT.C50_bounds_gaussian
/-- info: 'RT.C51_exact_partial' depends on axioms: [propext, Classical.choice, Quot.sound] -/
#guard_msgs (whitespace := lax) in
#print axioms RT.C51_exact_partial
/-- info: 'RT.C51_fresh' depends on axioms: [propext, Quot.sound] -/
#guard_msgs (whitespace := lax) in
#print axioms RT.C51_fresh
/-- info: 'RT.C51_violated' depends on axioms: [propext, Quot.sound] -/
#guard_msgs (whitespace := lax) in
#print axioms RT.C51_violated
/-- info: 'RT.RandomRays.C52_violated_random' does not depend on any axioms -/
#guard_msgs (whitespace := lax) in
#print axioms RT.RandomRays.C52_violated_random
/-- info: 'RT.C52_rays' does not depend on any axioms -/
#guard_msgs (whitespace := lax) in
#print axioms RT.C52_rays
/-- info: 'RT.C52_violated_empty' depends on axioms: [propext, Classical.choice, Quot.sound] -/
#guard_msgs (whitespace := lax) in
#print axioms RT.C52_violated_empty
/-- info: 'RT.C52_group_partial' depends on axioms: [propext, Classical.choice, Quot.sound] -/
#guard_msgs (whitespace := lax) in
#print axioms RT.C52_group_partial
/-- info: 'RT.Prefs.C53_sequential_partial' depends on axioms: [propext, Classical.choice, Quot.sound] -/
#guard_msgs (whitespace := lax) in
#print axioms RT.Prefs.C53_sequential_partial
/-- info: 'RT.Prefs.C53_read_preserves_partial' depends on axioms: [propext, Classical.choice, Quot.sound] -/
#guard_msgs (whitespace := lax) in
#print axioms RT.Prefs.C53_read_preserves_partial
/-- info: 'RT.Prefs.C53_read_crash_violated' depends on axioms: [propext] -/
#guard_msgs (whitespace := lax) in
#print axioms RT.Prefs.C53_read_crash_violated
/-- info: 'RT.Prefs.C53_crash_loses_all' depends on axioms: [propext] -/
#guard_msgs (whitespace := lax) in
#print axioms RT.Prefs.C53_crash_loses_all
/-- info: 'RT.Prefs.C53_set_crash_partial' depends on axioms: [propext, Quot.sound] -/
#guard_msgs (whitespace := lax) in
#print axioms RT.Prefs.C53_set_crash_partial
/-- info: 'RT.Prefs.C53_set_crash_violated' depends on axioms: [propext] -/
#guard_msgs (whitespace := lax) in
#print axioms RT.Prefs.C53_set_crash_violated
/-- info: 'RT.Prefs.C53_lost_update_violated' depends on axioms: [propext] -/
#guard_msgs (whitespace := lax) in
#print axioms RT.Prefs.C53_lost_update_violated
/-- info: 'RT.Prefs.C53_read_then_set_partial' depends on axioms: [propext, Classical.choice, Quot.sound] -/
#guard_msgs (whitespace := lax) in
#print axioms RT.Prefs.C53_read_then_set_partial
/-- info: 'RT.Prefs.C53_read_other' depends on axioms: [propext, Classical.choice, Quot.sound] -/
#guard_msgs (whitespace := lax) in
#print axioms RT.Prefs.C53_read_other
/-- info: 'RT.Prefs.C53_reset_violated' depends on axioms: [propext, Classical.choice, Quot.sound] -/
#guard_msgs (whitespace := lax) in
#print axioms RT.Prefs.C53_reset_violated
/-- info: 'RT.Prefs.C53_mixture_violated' depends on axioms: [propext] -/
#guard_msgs (whitespace := lax) in
#print axioms RT.Prefs.C53_mixture_violated
/-- info: 'RT.Prefs.C53_unserializable_violated' depends on axioms: [propext] -/
#guard_msgs (whitespace := lax) in
#print axioms RT.Prefs.C53_unserializable_violated
/-- info: 'RT.Prefs.C53_init_violated' does not depend on any axioms -/
#guard_msgs (whitespace := lax) in
#print axioms RT.Prefs.C53_init_violated
/-- info: 'RT.Prefs.C53_foreign_violated' depends on axioms: [propext] -/
#guard_msgs (whitespace := lax) in
#print axioms RT.Prefs.C53_foreign_violated
/-- info: 'RT.Prefs.C53_pairs' depends on axioms: [propext, Classical.choice, Quot.sound] -/
#guard_msgs (whitespace := lax) in
#print axioms RT.Prefs.C53_pairs
/-- info: 'RT.Prefs.C53_del_violated' depends on axioms: [propext, Classical.choice, Quot.sound] -/
#guard_msgs (whitespace := lax) in
#print axioms RT.Prefs.C53_del_violated
/-- info: 'RT.Zmx.C54_surfaces' depends on axioms: [propext] -/
#guard_msgs (whitespace := lax) in
#print axioms RT.Zmx.C54_surfaces
/-- info: 'RT.Zmx.C54_no_glass' depends on axioms: [propext] -/
#guard_msgs (whitespace := lax) in
#print axioms RT.Zmx.C54_no_glass
/-- info: 'RT.Zmx.C54_lens' depends on axioms: [propext, Classical.choice, Quot.sound] -/
#guard_msgs (whitespace := lax) in
#print axioms RT.Zmx.C54_lens
/-- info: 'RT.Zmx.C54_diameter_violated' depends on axioms: [propext, Classical.choice, Quot.sound] -/
#guard_msgs (whitespace := lax) in
#print axioms RT.Zmx.C54_diameter_violated
/-- info: 'RT.Zmx.C54_unclosed_violated' depends on axioms: [propext] -/
#guard_msgs (whitespace := lax) in
#print axioms RT.Zmx.C54_unclosed_violated
/-- info: 'RT.C55_not_a_number' depends on axioms: [propext, Classical.choice, Quot.sound] -/
#guard_msgs (whitespace := lax) in
#print axioms RT.C55_not_a_number
/-- info: 'RT.C55_elements' depends on axioms: [propext, Classical.choice, Quot.sound] -/
#guard_msgs (whitespace := lax) in
#print axioms RT.C55_elements
/-- info: 'RT.Zmx.C55_line' depends on axioms: [propext] -/
#guard_msgs (whitespace := lax) in
#print axioms RT.Zmx.C55_line
/-- info: 'RT.Zmx.C55_blank' depends on axioms: [propext, Quot.sound] -/
#guard_msgs (whitespace := lax) in
#print axioms RT.Zmx.C55_blank
/-- info: 'RT.Zmx.C55_unit_partial' depends on axioms: [propext, Classical.choice, Quot.sound] -/
#guard_msgs (whitespace := lax) in
#print axioms RT.Zmx.C55_unit_partial
/-- info: 'RT.Zmx.C55_unit_violated' depends on axioms: [propext, Classical.choice, Quot.sound] -/
#guard_msgs (whitespace := lax) in
#print axioms RT.Zmx.C55_unit_violated
/-- info: 'RT.Zmx.C55_wavelengths_partial' depends on axioms: [propext, Classical.choice, Quot.sound] -/
#guard_msgs (whitespace := lax) in
#print axioms RT.Zmx.C55_wavelengths_partial
/-- info: 'RT.Zmx.C55_wavelengths_violated' depends on axioms: [propext, Classical.choice, Quot.sound] -/
#guard_msgs (whitespace := lax) in
#print axioms RT.Zmx.C55_wavelengths_violated
/-- info: 'RT.Zmx.C55_one_wavelength' depends on axioms: [propext, Classical.choice, Quot.sound] -/
#guard_msgs (whitespace := lax) in
#print axioms RT.Zmx.C55_one_wavelength
/-- info: 'RT.Zmx.C55_design_wavelength' depends on axioms: [propext, Classical.choice, Quot.sound] -/
#guard_msgs (whitespace := lax) in
#print axioms RT.Zmx.C55_design_wavelength
/-- info: 'RT.Zmx.C55_surfaces' depends on axioms: [propext, Classical.choice, Quot.sound] -/
#guard_msgs (whitespace := lax) in
#print axioms RT.Zmx.C55_surfaces
/-- info: 'RT.Zmx.C55_block' depends on axioms: [propext, Classical.choice, Quot.sound] -/
#guard_msgs (whitespace := lax) in
#print axioms RT.Zmx.C55_block
/-- info: 'RT.Zmx.C55_file' depends on axioms: [propext, Classical.choice, Quot.sound] -/
#guard_msgs (whitespace := lax) in
#print axioms RT.Zmx.C55_file
/-- info: 'RT.Zmx.C55_cap_violated' depends on axioms: [propext, Classical.choice, Quot.sound] -/
#guard_msgs (whitespace := lax) in
#print axioms RT.Zmx.C55_cap_violated
/-- info: 'RT.C56_refused' depends on axioms: [propext, Classical.choice, Quot.sound] -/
#guard_msgs (whitespace := lax) in
#print axioms RT.C56_refused
/-- info: 'RT.C56_accepted' depends on axioms: [propext, Classical.choice, Quot.sound] -/
#guard_msgs (whitespace := lax) in
#print axioms RT.C56_accepted
/-- info: 'RT.C56_glass_partial' depends on axioms: [propext, Classical.choice, Quot.sound] -/
#guard_msgs (whitespace := lax) in
#print axioms RT.C56_glass_partial
/-- info: 'RT.C56_air' depends on axioms: [propext, Classical.choice, Quot.sound] -/
#guard_msgs (whitespace := lax) in
#print axioms RT.C56_air
/-- info: 'RT.C56_uv_violated' depends on axioms: [propext, Classical.choice, Quot.sound] -/
#guard_msgs (whitespace := lax) in
#print axioms RT.C56_uv_violated
/-- info: 'RT.C56_ir_violated' depends on axioms: [propext, Classical.choice, Quot.sound] -/
#guard_msgs (whitespace := lax) in
#print axioms RT.C56_ir_violated
/-- info: 'RT.C56_resonance_violated' depends on axioms: [propext, Classical.choice, Quot.sound] -/
#guard_msgs (whitespace := lax) in
#print axioms RT.C56_resonance_violated
/-- info: 'RT.C57_4f' depends on axioms: [propext, Classical.choice, Quot.sound] -/
#guard_msgs (whitespace := lax) in
#print axioms RT.C57_4f
/-- info: 'RT.C57_4f_refused' depends on axioms: [propext, Classical.choice, Quot.sound] -/
#guard_msgs (whitespace := lax) in
#print axioms RT.C57_4f_refused
/-- info: 'RT.C57_2f' depends on axioms: [propext, Classical.choice, Quot.sound] -/
#guard_msgs (whitespace := lax) in
#print axioms RT.C57_2f
/-- info: 'RT.C57_2f_refused' depends on axioms: [propext, Classical.choice, Quot.sound] -/
#guard_msgs (whitespace := lax) in
#print axioms RT.C57_2f_refused
/-- info: 'RT.C58_objective' depends on axioms: [propext, Classical.choice, Quot.sound] -/
#guard_msgs (whitespace := lax) in
#print axioms RT.C58_objective
/-- info: 'RT.C58_refused' depends on axioms: [propext, Classical.choice, Quot.sound] -/
#guard_msgs (whitespace := lax) in
#print axioms RT.C58_refused
/-- info: 'RT.C58_invariant' depends on axioms: [propext, Classical.choice, Quot.sound] -/
#guard_msgs (whitespace := lax) in
#print axioms RT.C58_invariant
/-- info: 'RT.C58_flip' depends on axioms: [propext, Classical.choice, Quot.sound] -/
#guard_msgs (whitespace := lax) in
#print axioms RT.C58_flip
/-- info: 'RT.C59_toFocus_iff' depends on axioms: [propext, Classical.choice, Quot.sound] -/
#guard_msgs (whitespace := lax) in
#print axioms RT.C59_toFocus_iff
/-- info: 'RT.C59_toFocus_partial' depends on axioms: [propext, Classical.choice, Quot.sound] -/
#guard_msgs (whitespace := lax) in
#print axioms RT.C59_toFocus_partial
/-- info: 'RT.C59_toFocus_refused' depends on axioms: [propext, Classical.choice, Quot.sound] -/
#guard_msgs (whitespace := lax) in
#print axioms RT.C59_toFocus_refused
/-- info: 'RT.C59_toFocus_violated' depends on axioms: [propext, Classical.choice, Quot.sound] -/
#guard_msgs (whitespace := lax) in
#print axioms RT.C59_toFocus_violated
/-- info: 'RT.C59_toConjugate' depends on axioms: [propext, Classical.choice, Quot.sound] -/
#guard_msgs (whitespace := lax) in
#print axioms RT.C59_toConjugate
/-- info: 'RT.C59_fromFocusToFocus_iff' depends on axioms: [propext, Classical.choice, Quot.sound] -/
#guard_msgs (whitespace := lax) in
#print axioms RT.C59_fromFocusToFocus_iff
/-- info: 'RT.C59_lens' depends on axioms: [propext, Classical.choice, Quot.sound] -/
#guard_msgs (whitespace := lax) in
#print axioms RT.C59_lens
/-- info: 'RT.C59_fromFocusToFocus_violated' depends on axioms: [propext, Classical.choice, Quot.sound] -/
#guard_msgs (whitespace := lax) in
#print axioms RT.C59_fromFocusToFocus_violated
/-- info: 'RT.C60_made' depends on axioms: [propext, Classical.choice, Quot.sound] -/
#guard_msgs (whitespace := lax) in
#print axioms RT.C60_made
/-- info: 'RT.C60_ray' depends on axioms: [propext, Classical.choice, Quot.sound] -/
#guard_msgs (whitespace := lax) in
#print axioms RT.C60_ray
/-- info: 'RT.C60_focal_line' depends on axioms: [propext, Classical.choice, Quot.sound] -/
#guard_msgs (whitespace := lax) in
#print axioms RT.C60_focal_line
/-- info: 'RT.C60_default_height' depends on axioms: [propext, Quot.sound] -/
#guard_msgs (whitespace := lax) in
#print axioms RT.C60_default_height
/-- info: 'RT.C60_beam' depends on axioms: [propext, Classical.choice, Quot.sound] -/
#guard_msgs (whitespace := lax) in
#print axioms RT.C60_beam
/-- info: 'RT.C60_blocked_violated' depends on axioms: [propext, Classical.choice, Quot.sound] -/
#guard_msgs (whitespace := lax) in
#print axioms RT.C60_blocked_violated
/-- info: 'RT.C61_violated' depends on axioms: [propext, Quot.sound] -/
#guard_msgs (whitespace := lax) in
#print axioms RT.C61_violated
/-- info: 'RT.C61_single_partial' depends on axioms: [propext, Quot.sound] -/
#guard_msgs (whitespace := lax) in
#print axioms RT.C61_single_partial
/-- info: 'RT.C61_unused_partial' depends on axioms: [propext, Quot.sound] -/
#guard_msgs (whitespace := lax) in
#print axioms RT.C61_unused_partial
/-- info: 'RT.C61_violated_traced' depends on axioms: [propext, Quot.sound] -/
#guard_msgs (whitespace := lax) in
#print axioms RT.C61_violated_traced
/-- info: 'RT.C61_equal' depends on axioms: [propext, Quot.sound] -/
#guard_msgs (whitespace := lax) in
#print axioms RT.C61_equal
/-- info: 'RT.C61_attributes' depends on axioms: [propext, Classical.choice, Quot.sound] -/
#guard_msgs (whitespace := lax) in
#print axioms RT.C61_attributes
/-- info: 'RT.C61_self' depends on axioms: [propext, Classical.choice, Quot.sound] -/
#guard_msgs (whitespace := lax) in
#print axioms RT.C61_self
/-- info: 'RT.C61_violated_iteration' depends on axioms: [propext, Classical.choice, Quot.sound] -/
#guard_msgs (whitespace := lax) in
#print axioms RT.C61_violated_iteration
/-- info: 'RT.C62_reset' depends on axioms: [propext, Classical.choice, Quot.sound] -/
#guard_msgs (whitespace := lax) in
#print axioms RT.C62_reset
/-- info: 'RT.C62_reset_overlaps' depends on axioms: [propext, Classical.choice, Quot.sound] -/
#guard_msgs (whitespace := lax) in
#print axioms RT.C62_reset_overlaps
/-- info: 'RT.C62_inside' depends on axioms: [propext, Classical.choice, Quot.sound] -/
#guard_msgs (whitespace := lax) in
#print axioms RT.C62_inside
/-- info: 'RT.C62_inside_violated' depends on axioms: [propext, Classical.choice, Quot.sound] -/
#guard_msgs (whitespace := lax) in
#print axioms RT.C62_inside_violated
/-- info: 'RT.C62_still' depends on axioms: [propext, Classical.choice, Quot.sound] -/
#guard_msgs (whitespace := lax) in
#print axioms RT.C62_still
/-- info: 'RT.C62_apart' depends on axioms: [propext, Classical.choice, Quot.sound] -/
#guard_msgs (whitespace := lax) in
#print axioms RT.C62_apart
/-- info: 'RT.C62_apart_violated' depends on axioms: [propext, Classical.choice, Quot.sound] -/
#guard_msgs (whitespace := lax) in
#print axioms RT.C62_apart_violated
/-- info: 'RT.C62_three_violated' depends on axioms: [propext, Classical.choice, Quot.sound] -/
#guard_msgs (whitespace := lax) in
#print axioms RT.C62_three_violated
/-- info: 'RT.C63_plotted' depends on axioms: [propext, Classical.choice, Quot.sound] -/
#guard_msgs (whitespace := lax) in
#print axioms RT.C63_plotted
/-- info: 'RT.C63_removed' depends on axioms: [propext, Classical.choice, Quot.sound] -/
#guard_msgs (whitespace := lax) in
#print axioms RT.C63_removed
/-- info: 'RT.C63_any_list' depends on axioms: [propext] -/
#guard_msgs (whitespace := lax) in
#print axioms RT.C63_any_list
/-- info: 'RT.C64_forward_partial' depends on axioms: [propext, Classical.choice, Quot.sound] -/
#guard_msgs (whitespace := lax) in
#print axioms RT.C64_forward_partial
/-- info: 'RT.C64_backwards_partial' depends on axioms: [propext, Classical.choice, Quot.sound] -/
#guard_msgs (whitespace := lax) in
#print axioms RT.C64_backwards_partial
/-- info: 'RT.C64_edge_violated' depends on axioms: [propext, Classical.choice, Quot.sound] -/
#guard_msgs (whitespace := lax) in
#print axioms RT.C64_edge_violated
/-- info: 'RT.C64_outside' depends on axioms: [propext, Classical.choice, Quot.sound] -/
#guard_msgs (whitespace := lax) in
#print axioms RT.C64_outside
/-- info: 'RT.C64_thick_violated' depends on axioms: [propext, Classical.choice, Quot.sound] -/
#guard_msgs (whitespace := lax) in
#print axioms RT.C64_thick_violated
/-- info: 'RT.C64_index_violated' depends on axioms: [propext, Classical.choice, Quot.sound] -/
#guard_msgs (whitespace := lax) in
#print axioms RT.C64_index_violated
/-- info: 'RT.C65_exclusive' depends on axioms: [propext, Quot.sound] -/
#guard_msgs (whitespace := lax) in
#print axioms RT.C65_exclusive
/-- info: 'RT.C65_opposite_iff' depends on axioms: [propext, Quot.sound] -/
#guard_msgs (whitespace := lax) in
#print axioms RT.C65_opposite_iff
/-- info: 'RT.C65_opposite_violated' depends on axioms: [propext, Classical.choice, Quot.sound] -/
#guard_msgs (whitespace := lax) in
#print axioms RT.C65_opposite_violated
/-- info: 'RT.C65_absolute_symm' depends on axioms: [propext, Quot.sound] -/
#guard_msgs (whitespace := lax) in
#print axioms RT.C65_absolute_symm
/-- info: 'RT.C65_absolute_iff' depends on axioms: [propext, Quot.sound] -/
#guard_msgs (whitespace := lax) in
#print axioms RT.C65_absolute_iff
/-- info: 'RT.C65_absolute_refl_iff' depends on axioms: [propext, Classical.choice, Quot.sound] -/
#guard_msgs (whitespace := lax) in
#print axioms RT.C65_absolute_refl_iff
/-- info: 'RT.C65_relative_iff' depends on axioms: [propext, Classical.choice, Quot.sound] -/
#guard_msgs (whitespace := lax) in
#print axioms RT.C65_relative_iff
/-- info: 'RT.C65_relative_symm' depends on axioms: [propext, Classical.choice, Quot.sound] -/
#guard_msgs (whitespace := lax) in
#print axioms RT.C65_relative_symm
/-- info: 'RT.C65_relative_refl' depends on axioms: [propext, Classical.choice, Quot.sound] -/
#guard_msgs (whitespace := lax) in
#print axioms RT.C65_relative_refl
/-- info: 'RT.C65_relative_violated' depends on axioms: [propext, Classical.choice, Quot.sound] -/
#guard_msgs (whitespace := lax) in
#print axioms RT.C65_relative_violated
/-- info: 'RT.C66_counts' depends on axioms: [propext, Classical.choice, Quot.sound] -/
#guard_msgs (whitespace := lax) in
#print axioms RT.C66_counts
/-- info: 'RT.C66_every_ray' depends on axioms: [propext, Classical.choice, Quot.sound] -/
#guard_msgs (whitespace := lax) in
#print axioms RT.C66_every_ray
/-- info: 'RT.C67_none' depends on axioms: [propext, Classical.choice, Quot.sound] -/
#guard_msgs (whitespace := lax) in
#print axioms RT.C67_none
/-- info: 'RT.C67_found' depends on axioms: [propext, Classical.choice, Quot.sound] -/
#guard_msgs (whitespace := lax) in
#print axioms RT.C67_found
/-- info: 'RT.C67_sound' depends on axioms: [propext, Classical.choice, Quot.sound] -/
#guard_msgs (whitespace := lax) in
#print axioms RT.C67_sound
/-- info: 'RT.C67_underscore' depends on axioms: [propext, Classical.choice, Quot.sound] -/
#guard_msgs (whitespace := lax) in
#print axioms RT.C67_underscore
/-- info: 'RT.C67_class_name' depends on axioms: [propext, Classical.choice, Quot.sound] -/
#guard_msgs (whitespace := lax) in
#print axioms RT.C67_class_name
/-- info: 'RT.C67_user_same' depends on axioms: [propext, Classical.choice, Quot.sound] -/
#guard_msgs (whitespace := lax) in
#print axioms RT.C67_user_same
/-- info: 'RT.C67_violated_user' depends on axioms: [propext, Classical.choice, Quot.sound] -/
#guard_msgs (whitespace := lax) in
#print axioms RT.C67_violated_user
/-- info: 'RT.C68_singlet' depends on axioms: [propext, Classical.choice, Quot.sound] -/
#guard_msgs (whitespace := lax) in
#print axioms RT.C68_singlet
/-- info: 'RT.C68_doublet' depends on axioms: [propext, Classical.choice, Quot.sound] -/
#guard_msgs (whitespace := lax) in
#print axioms RT.C68_doublet
/-- info: 'RT.C68_violated_int' depends on axioms: [propext, Classical.choice, Quot.sound] -/
#guard_msgs (whitespace := lax) in
#print axioms RT.C68_violated_int
/-- info: 'RT.C68_violated_int_doublet' depends on axioms: [propext, Classical.choice, Quot.sound] -/
#guard_msgs (whitespace := lax) in
#print axioms RT.C68_violated_int_doublet
/-- info: 'RT.C68_weak_violated' depends on axioms: [propext, Classical.choice, Quot.sound] -/
#guard_msgs (whitespace := lax) in
#print axioms RT.C68_weak_violated
/-- info: 'RT.C68_too_wide' depends on axioms: [propext, Classical.choice, Quot.sound] -/
#guard_msgs (whitespace := lax) in
#print axioms RT.C68_too_wide
/-- info: 'RT.C68_flat_edge_violated' depends on axioms: [propext, Classical.choice, Quot.sound] -/
#guard_msgs (whitespace := lax) in
#print axioms RT.C68_flat_edge_violated
/-- info: 'RT.C68_unlimited_violated' depends on axioms: [propext, Classical.choice, Quot.sound] -/
#guard_msgs (whitespace := lax) in
#print axioms RT.C68_unlimited_violated
/-- info: 'RT.C68_unlimited_small' depends on axioms: [propext, Classical.choice, Quot.sound] -/
#guard_msgs (whitespace := lax) in
#print axioms RT.C68_unlimited_small
/-- info: 'RT.C68_one_material_violated' depends on axioms: [propext, Classical.choice, Quot.sound] -/
#guard_msgs (whitespace := lax) in
#print axioms RT.C68_one_material_violated
/-- info: 'RT.C69_mirror' depends on axioms: [propext, Classical.choice, Quot.sound] -/
#guard_msgs (whitespace := lax) in
#print axioms RT.C69_mirror
/-- info: 'RT.C69_lens' depends on axioms: [propext, Classical.choice, Quot.sound] -/
#guard_msgs (whitespace := lax) in
#print axioms RT.C69_lens
/-- info: 'RT.C69_slab_axicon' depends on axioms: [propext, Classical.choice, Quot.sound] -/
#guard_msgs (whitespace := lax) in
#print axioms RT.C69_slab_axicon
/-- info: 'RT.C69_thick_violated' depends on axioms: [propext, Classical.choice, Quot.sound] -/
#guard_msgs (whitespace := lax) in
#print axioms RT.C69_thick_violated
/-- info: 'RT.C69_interface_violated' depends on axioms: [propext, Classical.choice, Quot.sound] -/
#guard_msgs (whitespace := lax) in
#print axioms RT.C69_interface_violated
/-- info: 'RT.C69_curved_mirror_violated' depends on axioms: [propext, Classical.choice, Quot.sound] -/
#guard_msgs (whitespace := lax) in
#print axioms RT.C69_curved_mirror_violated
/-- info: 'RT.C69_flat_mirror_violated' depends on axioms: [propext, Classical.choice, Quot.sound] -/
#guard_msgs (whitespace := lax) in
#print axioms RT.C69_flat_mirror_violated
/-- info: 'RT.C69_compound' depends on axioms: [propext, Classical.choice, Quot.sound] -/
#guard_msgs (whitespace := lax) in
#print axioms RT.C69_compound
/-- info: 'RT.C69_compound_violated' depends on axioms: [propext, Classical.choice, Quot.sound] -/
#guard_msgs (whitespace := lax) in
#print axioms RT.C69_compound_violated
/-- info: 'RT.C69_contact_violated' depends on axioms: [propext, Classical.choice, Quot.sound] -/
#guard_msgs (whitespace := lax) in
#print axioms RT.C69_contact_violated
/-- info: 'RT.C69_plano_violated' depends on axioms: [propext, Classical.choice, Quot.sound] -/
#guard_msgs (whitespace := lax) in
#print axioms RT.C69_plano_violated
/-- info: 'RT.C69_arc' depends on axioms: [propext, Classical.choice, Quot.sound] -/
#guard_msgs (whitespace := lax) in
#print axioms RT.C69_arc
/-- info: 'RT.C70_lines' depends on axioms: [propext, Classical.choice, Quot.sound] -/
#guard_msgs (whitespace := lax) in
#print axioms RT.C70_lines
/-- info: 'RT.C70_trace_drawn' depends on axioms: [propext, Classical.choice, Quot.sound] -/
#guard_msgs (whitespace := lax) in
#print axioms RT.C70_trace_drawn
/-- info: 'RT.C70_size' depends on axioms: [propext, Classical.choice, Quot.sound] -/
#guard_msgs (whitespace := lax) in
#print axioms RT.C70_size
/-- info: 'RT.C70_waists_partial' depends on axioms: [propext, Classical.choice, Quot.sound] -/
#guard_msgs (whitespace := lax) in
#print axioms RT.C70_waists_partial
/-- info: 'RT.C71_report' depends on axioms: [propext, Classical.choice, Quot.sound] -/
#guard_msgs (whitespace := lax) in
#print axioms RT.C71_report
/-- info: 'RT.C71_efficiency' depends on axioms: [propext, Classical.choice, Quot.sound] -/
#guard_msgs (whitespace := lax) in
#print axioms RT.C71_efficiency
/-- info: 'RT.C71_no_field' depends on axioms: [propext, Classical.choice, Quot.sound] -/
#guard_msgs (whitespace := lax) in
#print axioms RT.C71_no_field
/-- info: 'RT.C71_violated_dark' depends on axioms: [propext, Classical.choice, Quot.sound] -/
#guard_msgs (whitespace := lax) in
#print axioms RT.C71_violated_dark
/-- info: 'RT.C71_violated_field' depends on axioms: [propext, Classical.choice, Quot.sound] -/
#guard_msgs (whitespace := lax) in
#print axioms RT.C71_violated_field
/-- info: 'RT.C71_violated_single' depends on axioms: [propext, Classical.choice, Quot.sound] -/
#guard_msgs (whitespace := lax) in
#print axioms RT.C71_violated_single
/-- info: 'RT.C71_violated_thick' depends on axioms: [propext, Classical.choice, Quot.sound] -/
#guard_msgs (whitespace := lax) in
#print axioms RT.C71_violated_thick
/-- info: 'RT.C72_design' depends on axioms: [propext, Quot.sound] -/
#guard_msgs (whitespace := lax) in
#print axioms RT.C72_design
/-- info: 'RT.C72_style' depends on axioms: [propext, Quot.sound] -/
#guard_msgs (whitespace := lax) in
#print axioms RT.C72_style
/-- info: 'RT.C72_unknown_style' depends on axioms: [propext] -/
#guard_msgs (whitespace := lax) in
#print axioms RT.C72_unknown_style
/-- info: 'RT.C72_violated_design' depends on axioms: [propext, Classical.choice, Quot.sound] -/
#guard_msgs (whitespace := lax) in
#print axioms RT.C72_violated_design
/-- info: 'RT.C72_violated_lost' depends on axioms: [propext, Classical.choice, Quot.sound] -/
#guard_msgs (whitespace := lax) in
#print axioms RT.C72_violated_lost
/-- info: 'RT.C72_height' depends on axioms: [propext, Classical.choice, Quot.sound] -/
#guard_msgs (whitespace := lax) in
#print axioms RT.C72_height
/-- info: 'RT.C72_violated_height' depends on axioms: [propext, Classical.choice, Quot.sound] -/
#guard_msgs (whitespace := lax) in
#print axioms RT.C72_violated_height
/-- info: 'RT.C72_violated_style' depends on axioms: [propext, Classical.choice, Quot.sound] -/
#guard_msgs (whitespace := lax) in
#print axioms RT.C72_violated_style
/-- info: 'RT.C72_removeBlocked' depends on axioms: [propext, Classical.choice, Quot.sound] -/
#guard_msgs (whitespace := lax) in
#print axioms RT.C72_removeBlocked
/-- info: 'RT.C72_list' depends on axioms: [propext, Classical.choice, Quot.sound] -/
#guard_msgs (whitespace := lax) in
#print axioms RT.C72_list
/-- info: 'RT.C72_violated_list' depends on axioms: [propext, Classical.choice, Quot.sound] -/
#guard_msgs (whitespace := lax) in
#print axioms RT.C72_violated_list
/-- info: 'RT.C72_violated_list_again' depends on axioms: [propext, Classical.choice, Quot.sound] -/
#guard_msgs (whitespace := lax) in
#print axioms RT.C72_violated_list_again
/-- info: 'RT.C72_new' depends on axioms: [propext, Classical.choice, Quot.sound] -/
#guard_msgs (whitespace := lax) in
#print axioms RT.C72_new
/-- info: 'RT.C72_object' depends on axioms: [propext, Classical.choice, Quot.sound] -/
#guard_msgs (whitespace := lax) in
#print axioms RT.C72_object
/-- info: 'RT.C72_first' depends on axioms: [propext, Classical.choice, Quot.sound] -/
#guard_msgs (whitespace := lax) in
#print axioms RT.C72_first
/-- info: 'RT.C72_with_object' depends on axioms: [propext, Classical.choice, Quot.sound] -/
#guard_msgs (whitespace := lax) in
#print axioms RT.C72_with_object
/-- info: 'RT.C72_violated_negative' depends on axioms: [propext, Classical.choice, Quot.sound] -/
#guard_msgs (whitespace := lax) in
#print axioms RT.C72_violated_negative
/-- info: 'RT.C72_repeat_partial' depends on axioms: [propext, Classical.choice, Quot.sound] -/
#guard_msgs (whitespace := lax) in
#print axioms RT.C72_repeat_partial
/-- info: 'RT.C73_lines' depends on axioms: [propext, Classical.choice, Quot.sound] -/
#guard_msgs (whitespace := lax) in
#print axioms RT.C73_lines
/-- info: 'RT.C73_colors' depends on axioms: [propext, Classical.choice, Quot.sound] -/
#guard_msgs (whitespace := lax) in
#print axioms RT.C73_colors
/-- info: 'RT.C73_violated' depends on axioms: [propext, Classical.choice, Quot.sound] -/
#guard_msgs (whitespace := lax) in
#print axioms RT.C73_violated
/-- info: 'RT.C73_axial' depends on axioms: [propext, Classical.choice, Quot.sound] -/
#guard_msgs (whitespace := lax) in
#print axioms RT.C73_axial
/-- info: 'RT.C74_images_partial' depends on axioms: [propext, Classical.choice, Quot.sound] -/
#guard_msgs (whitespace := lax) in
#print axioms RT.C74_images_partial
/-- info: 'RT.C74_entrance' depends on axioms: [propext, Classical.choice, Quot.sound] -/
#guard_msgs (whitespace := lax) in
#print axioms RT.C74_entrance
/-- info: 'RT.C74_violated_asymmetric' depends on axioms: [propext, Classical.choice, Quot.sound] -/
#guard_msgs (whitespace := lax) in
#print axioms RT.C74_violated_asymmetric
/-- info: 'RT.C74_violated_group' depends on axioms: [propext, Classical.choice, Quot.sound] -/
#guard_msgs (whitespace := lax) in
#print axioms RT.C74_violated_group
/-- info: 'RT.C74_violated_edge' depends on axioms: [propext, Classical.choice, Quot.sound] -/
#guard_msgs (whitespace := lax) in
#print axioms RT.C74_violated_edge
/-- info: 'RT.C74_violated_inside' depends on axioms: [propext, Classical.choice, Quot.sound] -/
#guard_msgs (whitespace := lax) in
#print axioms RT.C74_violated_inside
/-- info: 'RT.C74_violated_media' depends on axioms: [propext, Classical.choice, Quot.sound] -/
#guard_msgs (whitespace := lax) in
#print axioms RT.C74_violated_media
/-- info: 'RT.C74_objects' depends on axioms: [propext, Classical.choice, Quot.sound] -/
#guard_msgs (whitespace := lax) in
#print axioms RT.C74_objects
/-- info: 'RT.C74_violated_same' depends on axioms: [propext, Classical.choice, Quot.sound] -/
#guard_msgs (whitespace := lax) in
#print axioms RT.C74_violated_same
/-- info: 'RT.C74_images_only' depends on axioms: [propext, Classical.choice, Quot.sound] -/
#guard_msgs (whitespace := lax) in
#print axioms RT.C74_images_only
/-- info: 'RT.C74_violated_hidden' depends on axioms: [propext, Classical.choice, Quot.sound] -/
#guard_msgs (whitespace := lax) in
#print axioms RT.C74_violated_hidden
/-- info: 'RT.C75_range' depends on axioms: [propext, Classical.choice, Quot.sound] -/
#guard_msgs (whitespace := lax) in
#print axioms RT.C75_range
/-- info: 'RT.C75_infinite' depends on axioms: [propext, Classical.choice, Quot.sound] -/
#guard_msgs (whitespace := lax) in
#print axioms RT.C75_infinite
/-- info: 'RT.C75_laser' depends on axioms: [propext, Classical.choice, Quot.sound] -/
#guard_msgs (whitespace := lax) in
#print axioms RT.C75_laser
/-- info: 'RT.C76_marks' depends on axioms: [propext, Classical.choice, Quot.sound] -/
#guard_msgs (whitespace := lax) in
#print axioms RT.C76_marks
/-- info: 'RT.C76_foci_partial' depends on axioms: [propext, Classical.choice, Quot.sound] -/
#guard_msgs (whitespace := lax) in
#print axioms RT.C76_foci_partial
/-- info: 'RT.C76_violated_group' depends on axioms: [propext, Classical.choice, Quot.sound] -/
#guard_msgs (whitespace := lax) in
#print axioms RT.C76_violated_group
/-- info: 'RT.C76_violated_afocal' depends on axioms: [propext, Classical.choice, Quot.sound] -/
#guard_msgs (whitespace := lax) in
#print axioms RT.C76_violated_afocal
/-- info: 'RT.C76_element' depends on axioms: [propext, Classical.choice, Quot.sound] -/
#guard_msgs (whitespace := lax) in
#print axioms RT.C76_element
/-- info: 'RT.C76_group' depends on axioms: [propext, Classical.choice, Quot.sound] -/
#guard_msgs (whitespace := lax) in
#print axioms RT.C76_group
/-- info: 'RT.C76_violated_moved' depends on axioms: [propext, Classical.choice, Quot.sound] -/
#guard_msgs (whitespace := lax) in
#print axioms RT.C76_violated_moved
/-- info: 'RT.C77_box' depends on axioms: [propext, Classical.choice, Quot.sound] -/
#guard_msgs (whitespace := lax) in
#print axioms RT.C77_box
/-- info: 'RT.C77_drawn_partial' depends on axioms: [propext, Classical.choice, Quot.sound] -/
#guard_msgs (whitespace := lax) in
#print axioms RT.C77_drawn_partial
/-- info: 'RT.C77_violated_box' depends on axioms: [propext, Classical.choice, Quot.sound] -/
#guard_msgs (whitespace := lax) in
#print axioms RT.C77_violated_box
/-- info: 'RT.C77_violated_aperture' depends on axioms: [propext, Quot.sound] -/
#guard_msgs (whitespace := lax) in
#print axioms RT.C77_violated_aperture
/-- info: 'RT.C77_height' depends on axioms: [propext, Classical.choice, Quot.sound] -/
#guard_msgs (whitespace := lax) in
#print axioms RT.C77_height
/-- info: 'RT.C77_violated_below' depends on axioms: [propext, Classical.choice, Quot.sound] -/
#guard_msgs (whitespace := lax) in
#print axioms RT.C77_violated_below
/-- info: 'RT.C77_box_partial' depends on axioms: [propext, Classical.choice, Quot.sound] -/
#guard_msgs (whitespace := lax) in
#print axioms RT.C77_box_partial
/-- info: 'RT.C77_bars' depends on axioms: [propext, Classical.choice, Quot.sound] -/
#guard_msgs (whitespace := lax) in
#print axioms RT.C77_bars
/-- info: 'RT.C78_computed' depends on axioms: [propext, Classical.choice, Quot.sound] -/
#guard_msgs (whitespace := lax) in
#print axioms RT.C78_computed
/-- info: 'RT.C78_measures' depends on axioms: [propext, Classical.choice, Quot.sound] -/
#guard_msgs (whitespace := lax) in
#print axioms RT.C78_measures
/-- info: 'RT.C78_violated_group' depends on axioms: [propext, Classical.choice, Quot.sound] -/
#guard_msgs (whitespace := lax) in
#print axioms RT.C78_violated_group
/-- info: 'RT.C78_violated_moved' depends on axioms: [propext, Classical.choice, Quot.sound] -/
#guard_msgs (whitespace := lax) in
#print axioms RT.C78_violated_moved
/-- info: 'RT.C78_violated_vertices' depends on axioms: [propext, Classical.choice, Quot.sound] -/
#guard_msgs (whitespace := lax) in
#print axioms RT.C78_violated_vertices
/-- info: 'RT.C78_violated_space' depends on axioms: [propext, Classical.choice, Quot.sound] -/
#guard_msgs (whitespace := lax) in
#print axioms RT.C78_violated_space
/-- info: 'RT.C79_singlet' depends on axioms: [propext, Classical.choice, Quot.sound] -/
#guard_msgs (whitespace := lax) in
#print axioms RT.C79_singlet
/-- info: 'RT.C79_doublet' depends on axioms: [propext, Classical.choice, Quot.sound] -/
#guard_msgs (whitespace := lax) in
#print axioms RT.C79_doublet
/-- info: 'RT.C79_violated_int' depends on axioms: [propext, Classical.choice, Quot.sound] -/
#guard_msgs (whitespace := lax) in
#print axioms RT.C79_violated_int
/-- info: 'RT.C79_default' depends on axioms: [propext, Classical.choice, Quot.sound] -/
#guard_msgs (whitespace := lax) in
#print axioms RT.C79_default
/-- info: 'RT.C79_violated_list' depends on axioms: [propext, Classical.choice, Quot.sound] -/
#guard_msgs (whitespace := lax) in
#print axioms RT.C79_violated_list
/-- info: 'RT.C79_violated_class' depends on axioms: [propext, Classical.choice, Quot.sound] -/
#guard_msgs (whitespace := lax) in
#print axioms RT.C79_violated_class
/-- info: 'RT.C80_found' depends on axioms: [propext, Classical.choice, Quot.sound] -/
#guard_msgs (whitespace := lax) in
#print axioms RT.C80_found
/-- info: 'RT.C80_real' depends on axioms: [propext, Classical.choice, Quot.sound] -/
#guard_msgs (whitespace := lax) in
#print axioms RT.C80_real
/-- info: 'RT.C80_refused' depends on axioms: [propext, Classical.choice, Quot.sound] -/
#guard_msgs (whitespace := lax) in
#print axioms RT.C80_refused
/-- info: 'RT.C80_violated_resonance' depends on axioms: [propext, Classical.choice, Quot.sound] -/
#guard_msgs (whitespace := lax) in
#print axioms RT.C80_violated_resonance
/-- info: 'RT.C80_violated_user' depends on axioms: [propext, Classical.choice, Quot.sound] -/
#guard_msgs (whitespace := lax) in
#print axioms RT.C80_violated_user
/-- info: 'RT.C80_violated_twice' depends on axioms: [propext, Classical.choice, Quot.sound] -/
#guard_msgs (whitespace := lax) in
#print axioms RT.C80_violated_twice
/-- info: 'RT.C81_all' depends on axioms: [propext, Classical.choice, Quot.sound] -/
#guard_msgs (whitespace := lax) in
#print axioms RT.C81_all
/-- info: 'RT.C81_violated_same' depends on axioms: [propext, Classical.choice, Quot.sound] -/
#guard_msgs (whitespace := lax) in
#print axioms RT.C81_violated_same
/-- info: 'RT.C82_display' depends on axioms: [propext, Quot.sound] -/
#guard_msgs (whitespace := lax) in
#print axioms RT.C82_display
/-- info: 'RT.C82_boxes' depends on axioms: [propext, Classical.choice, Quot.sound] -/
#guard_msgs (whitespace := lax) in
#print axioms RT.C82_boxes
/-- info: 'RT.C82_clicks' depends on axioms: [propext, Classical.choice, Quot.sound] -/
#guard_msgs (whitespace := lax) in
#print axioms RT.C82_clicks
/-- info: 'RT.C82_violated_labels' depends on axioms: [propext, Quot.sound] -/
#guard_msgs (whitespace := lax) in
#print axioms RT.C82_violated_labels
/-- info: 'RT.C82_violated_elsewhere' depends on axioms: [propext, Quot.sound] -/
#guard_msgs (whitespace := lax) in
#print axioms RT.C82_violated_elsewhere
/-- info: 'RT.C83_pen' depends on axioms: [propext, Classical.choice, Quot.sound] -/
#guard_msgs (whitespace := lax) in
#print axioms RT.C83_pen
/-- info: 'RT.C83_polygon' depends on axioms: [propext, Classical.choice, Quot.sound] -/
#guard_msgs (whitespace := lax) in
#print axioms RT.C83_polygon
/-- info: 'RT.C83_outline' depends on axioms: [propext, Classical.choice, Quot.sound] -/
#guard_msgs (whitespace := lax) in
#print axioms RT.C83_outline
/-- info: 'RT.C83_box' depends on axioms: [propext, Quot.sound] -/
#guard_msgs (whitespace := lax) in
#print axioms RT.C83_box
/-- info: 'RT.C83_halfHeight' depends on axioms: [propext, Classical.choice, Quot.sound] -/
#guard_msgs (whitespace := lax) in
#print axioms RT.C83_halfHeight
/-- info: 'RT.C83_label' depends on axioms: [propext, Classical.choice, Quot.sound] -/
#guard_msgs (whitespace := lax) in
#print axioms RT.C83_label
/-- info: 'RT.C83_object' depends on axioms: [propext, Classical.choice, Quot.sound] -/
#guard_msgs (whitespace := lax) in
#print axioms RT.C83_object
/-- info: 'RT.C83_tips' depends on axioms: [propext, Classical.choice, Quot.sound] -/
#guard_msgs (whitespace := lax) in
#print axioms RT.C83_tips
/-- info: 'RT.C83_lens_label' depends on axioms: [propext, Classical.choice, Quot.sound] -/
#guard_msgs (whitespace := lax) in
#print axioms RT.C83_lens_label
/-- info: 'RT.C83_box_label' depends on axioms: [propext, Classical.choice, Quot.sound] -/
#guard_msgs (whitespace := lax) in
#print axioms RT.C83_box_label
/-- info: 'RT.C83_lamp' depends on axioms: [propext, Classical.choice, Quot.sound] -/
#guard_msgs (whitespace := lax) in
#print axioms RT.C83_lamp
/-- info: 'RT.C83_surfaces' depends on axioms: [propext, Classical.choice, Quot.sound] -/
#guard_msgs (whitespace := lax) in
#print axioms RT.C83_surfaces
/-- info: 'RT.C84_points' depends on axioms: [propext, Classical.choice, Quot.sound] -/
#guard_msgs (whitespace := lax) in
#print axioms RT.C84_points
/-- info: 'RT.C84_outline' depends on axioms: [propext, Classical.choice, Quot.sound] -/
#guard_msgs (whitespace := lax) in
#print axioms RT.C84_outline
/-- info: 'RT.C84_violated_bars' depends on axioms: [propext, Classical.choice, Quot.sound] -/
#guard_msgs (whitespace := lax) in
#print axioms RT.C84_violated_bars
/-- info: 'RT.C85_aperture' depends on axioms: [propext, Classical.choice, Quot.sound] -/
#guard_msgs (whitespace := lax) in
#print axioms RT.C85_aperture
/-- info: 'RT.C85_field' depends on axioms: [propext, Classical.choice, Quot.sound] -/
#guard_msgs (whitespace := lax) in
#print axioms RT.C85_field
/-- info: 'RT.C85_no_stop' depends on axioms: [propext, Classical.choice, Quot.sound] -/
#guard_msgs (whitespace := lax) in
#print axioms RT.C85_no_stop
/-- info: 'RT.C85_pupil' depends on axioms: [propext, Classical.choice, Quot.sound] -/
#guard_msgs (whitespace := lax) in
#print axioms RT.C85_pupil
/-- info: 'RT.C85_violated_pupil' depends on axioms: [propext, Classical.choice, Quot.sound] -/
#guard_msgs (whitespace := lax) in
#print axioms RT.C85_violated_pupil
/-- info: 'RT.C85_principal' depends on axioms: [propext, Classical.choice, Quot.sound] -/
#guard_msgs (whitespace := lax) in
#print axioms RT.C85_principal
/-- info: 'RT.C86_last' depends on axioms: [propext, Quot.sound] -/
#guard_msgs (whitespace := lax) in
#print axioms RT.C86_last
/-- info: 'RT.C86_user_filter' depends on axioms: [propext, Classical.choice, Quot.sound] -/
#guard_msgs (whitespace := lax) in
#print axioms RT.C86_user_filter
/-- info: 'RT.C86_module' depends on axioms: [propext, Classical.choice, Quot.sound] -/
#guard_msgs (whitespace := lax) in
#print axioms RT.C86_module
/-- info: 'RT.C86_intent' depends on axioms: [propext, Quot.sound] -/
#guard_msgs (whitespace := lax) in
#print axioms RT.C86_intent
/-- info: 'RT.C86_silent' depends on axioms: [propext, Quot.sound] -/
#guard_msgs (whitespace := lax) in
#print axioms RT.C86_silent
/-- info: 'RT.C86_expert' depends on axioms: [propext, Classical.choice, Quot.sound] -/
#guard_msgs (whitespace := lax) in
#print axioms RT.C86_expert
/-- info: 'RT.C86_beginner' depends on axioms: [propext, Classical.choice, Quot.sound] -/
#guard_msgs (whitespace := lax) in
#print axioms RT.C86_beginner
/-- info: 'RT.C86_violated_expert' depends on axioms: [propext, Classical.choice, Quot.sound] -/
#guard_msgs (whitespace := lax) in
#print axioms RT.C86_violated_expert
/-- info: 'RT.C86_violated_beginner' depends on axioms: [propext, Quot.sound] -/
#guard_msgs (whitespace := lax) in
#print axioms RT.C86_violated_beginner
/-- info: 'RT.C87_import' depends on axioms: [propext, Classical.choice, Quot.sound] -/
#guard_msgs (whitespace := lax) in
#print axioms RT.C87_import
/-- info: 'RT.C87_violated_foreign' depends on axioms: [propext, Classical.choice, Quot.sound] -/
#guard_msgs (whitespace := lax) in
#print axioms RT.C87_violated_foreign
/-- info: 'RT.C87_check' depends on axioms: [propext, Classical.choice, Quot.sound] -/
#guard_msgs (whitespace := lax) in
#print axioms RT.C87_check
/-- info: 'RT.C87_checks' depends on axioms: [propext, Classical.choice, Quot.sound] -/
#guard_msgs (whitespace := lax) in
#print axioms RT.C87_checks
/-- info: 'RT.C87_mode' depends on axioms: [propext, Quot.sound] -/
#guard_msgs (whitespace := lax) in
#print axioms RT.C87_mode
/-- info: 'RT.C87_saved' depends on axioms: [propext, Quot.sound] -/
#guard_msgs (whitespace := lax) in
#print axioms RT.C87_saved
/-- info: 'RT.C87_new' depends on axioms: [propext] -/
#guard_msgs (whitespace := lax) in
#print axioms RT.C87_new
/-- info: 'RT.C87_violated_second' depends on axioms: [propext, Quot.sound] -/
#guard_msgs (whitespace := lax) in
#print axioms RT.C87_violated_second
/-- info: 'RT.C87_violated_first' depends on axioms: [propext, Quot.sound] -/
#guard_msgs (whitespace := lax) in
#print axioms RT.C87_violated_first
/-- info: 'RT.C87_violated_day' depends on axioms: [propext, Classical.choice, Quot.sound] -/
#guard_msgs (whitespace := lax) in
#print axioms RT.C87_violated_day
/-- info: 'RT.C87_violated_env' depends on axioms: [propext, Quot.sound] -/
#guard_msgs (whitespace := lax) in
#print axioms RT.C87_violated_env
/-- info: 'RT.C88_leaves' depends on axioms: [propext, Classical.choice, Quot.sound] -/
#guard_msgs (whitespace := lax) in
#print axioms RT.C88_leaves
/-- info: 'RT.C88_violated' depends on axioms: [propext, Classical.choice, Quot.sound] -/
#guard_msgs (whitespace := lax) in
#print axioms RT.C88_violated
/-- info: 'RT.C89_violated_arrows' depends on axioms: [propext, Classical.choice, Quot.sound] -/
#guard_msgs (whitespace := lax) in
#print axioms RT.C89_violated_arrows
/-- info: 'RT.C89_violated_all' depends on axioms: [propext, Classical.choice, Quot.sound] -/
#guard_msgs (whitespace := lax) in
#print axioms RT.C89_violated_all
/-- info: 'RT.C89_lines' depends on axioms: [propext, Classical.choice, Quot.sound] -/
#guard_msgs (whitespace := lax) in
#print axioms RT.C89_lines
/-- info: 'RT.C89_violated_none' depends on axioms: [propext, Classical.choice, Quot.sound] -/
#guard_msgs (whitespace := lax) in
#print axioms RT.C89_violated_none
/-- info: 'RT.C89_cavity' depends on axioms: [propext, Classical.choice, Quot.sound] -/
#guard_msgs (whitespace := lax) in
#print axioms RT.C89_cavity
/-- info: 'RT.C89_shown' depends on axioms: [propext, Classical.choice, Quot.sound] -/
#guard_msgs (whitespace := lax) in
#print axioms RT.C89_shown
/-- info: 'RT.C90_programs' depends on axioms: [propext, Classical.choice, Quot.sound] -/
#guard_msgs (whitespace := lax) in
#print axioms RT.C90_programs
/-- info: 'RT.C90_matrix' depends on axioms: [propext, Classical.choice, Quot.sound] -/
#guard_msgs (whitespace := lax) in
#print axioms RT.C90_matrix
/-- info: 'RT.C90_trace' depends on axioms: [propext, Quot.sound] -/
#guard_msgs (whitespace := lax) in
#print axioms RT.C90_trace
/-- info: 'RT.C90_flip_times' depends on axioms: [propext, Classical.choice, Quot.sound] -/
#guard_msgs (whitespace := lax) in
#print axioms RT.C90_flip_times
/-- info: 'RT.C90_violated_flip' depends on axioms: [propext, Classical.choice, Quot.sound] -/
#guard_msgs (whitespace := lax) in
#print axioms RT.C90_violated_flip
/-- info: 'RT.C90_violated_space' depends on axioms: [propext, Classical.choice, Quot.sound] -/
#guard_msgs (whitespace := lax) in
#print axioms RT.C90_violated_space
/-- info: 'RT.C90_slice' depends on axioms: [propext, Classical.choice, Quot.sound] -/
#guard_msgs (whitespace := lax) in
#print axioms RT.C90_slice
/-- info: 'RT.C90_violated_flip_twice' depends on axioms: [propext, Classical.choice, Quot.sound] -/
#guard_msgs (whitespace := lax) in
#print axioms RT.C90_violated_flip_twice
/-- info: 'RT.C90_violated_slice' depends on axioms: [propext, Classical.choice, Quot.sound] -/
#guard_msgs (whitespace := lax) in
#print axioms RT.C90_violated_slice
/-- info: 'RT.C90_violated_group' depends on axioms: [propext, Classical.choice, Quot.sound] -/
#guard_msgs (whitespace := lax) in
#print axioms RT.C90_violated_group
/-- info: 'RT.C91_lines_partial' depends on axioms: [propext, Classical.choice, Quot.sound] -/
#guard_msgs (whitespace := lax) in
#print axioms RT.C91_lines_partial
/-- info: 'RT.C91_entrance_partial' depends on axioms: [propext, Classical.choice, Quot.sound] -/
#guard_msgs (whitespace := lax) in
#print axioms RT.C91_entrance_partial
/-- info: 'RT.C91_sides' depends on axioms: [propext, Classical.choice, Quot.sound] -/
#guard_msgs (whitespace := lax) in
#print axioms RT.C91_sides
/-- info: 'RT.C91_start' depends on axioms: [propext, Classical.choice, Quot.sound] -/
#guard_msgs (whitespace := lax) in
#print axioms RT.C91_start
/-- info: 'RT.C91_through' depends on axioms: [propext, Quot.sound] -/
#guard_msgs (whitespace := lax) in
#print axioms RT.C91_through
/-- info: 'RT.C91_removed' depends on axioms: [propext, Classical.choice, Quot.sound] -/
#guard_msgs (whitespace := lax) in
#print axioms RT.C91_removed
/-- info: 'RT.C91_thick_violated' depends on axioms: [propext, Classical.choice, Quot.sound] -/
#guard_msgs (whitespace := lax) in
#print axioms RT.C91_thick_violated
/-- info: 'RT.C91_edge_violated' depends on axioms: [propext, Classical.choice, Quot.sound] -/
#guard_msgs (whitespace := lax) in
#print axioms RT.C91_edge_violated
/-- info: 'RT.C91_outside_violated' depends on axioms: [propext, Classical.choice, Quot.sound] -/
#guard_msgs (whitespace := lax) in
#print axioms RT.C91_outside_violated
/-- info: 'RT.C91_media_violated' depends on axioms: [propext, Classical.choice, Quot.sound] -/
#guard_msgs (whitespace := lax) in
#print axioms RT.C91_media_violated
/-- info: 'RT.C91_violated_thick' depends on axioms: [propext, Classical.choice, Quot.sound] -/
#guard_msgs (whitespace := lax) in
#print axioms RT.C91_violated_thick
/-- info: 'RT.C91_violated_asymmetric' depends on axioms: [propext, Classical.choice, Quot.sound] -/
#guard_msgs (whitespace := lax) in
#print axioms RT.C91_violated_asymmetric
/-- info: 'RT.C92_created' depends on axioms: [propext, Classical.choice, Quot.sound] -/
#guard_msgs (whitespace := lax) in
#print axioms RT.C92_created
/-- info: 'RT.C92_refused' depends on axioms: [propext, Classical.choice, Quot.sound] -/
#guard_msgs (whitespace := lax) in
#print axioms RT.C92_refused
/-- info: 'RT.C92_warnings' depends on axioms: [propext, Classical.choice, Quot.sound] -/
#guard_msgs (whitespace := lax) in
#print axioms RT.C92_warnings
/-- info: 'RT.C92_visible' depends on axioms: [propext, Classical.choice, Quot.sound] -/
#guard_msgs (whitespace := lax) in
#print axioms RT.C92_visible
/-- info: 'RT.C92_focalShifts' depends on axioms: [propext, Classical.choice, Quot.sound] -/
#guard_msgs (whitespace := lax) in
#print axioms RT.C92_focalShifts
/-- info: 'RT.C92_default' depends on axioms: [propext, Classical.choice, Quot.sound] -/
#guard_msgs (whitespace := lax) in
#print axioms RT.C92_default
/-- info: 'RT.C92_violated' depends on axioms: [propext, Classical.choice, Quot.sound] -/
#guard_msgs (whitespace := lax) in
#print axioms RT.C92_violated
/-- info: 'RT.C92_violated_half' depends on axioms: [propext, Classical.choice, Quot.sound] -/
#guard_msgs (whitespace := lax) in
#print axioms RT.C92_violated_half
/-- info: 'RT.C92_violated_int' depends on axioms: [propext, Classical.choice, Quot.sound] -/
#guard_msgs (whitespace := lax) in
#print axioms RT.C92_violated_int
/-- info: 'RT.C92_violated_twice' depends on axioms: [propext, Classical.choice, Quot.sound] -/
#guard_msgs (whitespace := lax) in
#print axioms RT.C92_violated_twice
/-- info: 'RT.C92_objectives' depends on axioms: [propext, Classical.choice, Quot.sound] -/
#guard_msgs (whitespace := lax) in
#print axioms RT.C92_objectives
/-- info: 'RT.C92_invariants' depends on axioms: [propext, Classical.choice, Quot.sound] -/
#guard_msgs (whitespace := lax) in
#print axioms RT.C92_invariants
/-- info: 'RT.C92_once' depends on axioms: [propext, Classical.choice, Quot.sound] -/
#guard_msgs (whitespace := lax) in
#print axioms RT.C92_once
/-- info: 'RT.C93_decreasing' depends on axioms: [propext, Classical.choice, Quot.sound] -/
#guard_msgs (whitespace := lax) in
#print axioms RT.C93_decreasing
/-- info: 'RT.C93_abbe' depends on axioms: [propext, Classical.choice, Quot.sound] -/
#guard_msgs (whitespace := lax) in
#print axioms RT.C93_abbe
/-- info: 'RT.C93_violated' depends on axioms: [propext, Classical.choice, Quot.sound] -/
#guard_msgs (whitespace := lax) in
#print axioms RT.C93_violated
/-- info: 'RT.C93_order' depends on axioms: [propext, Classical.choice, Quot.sound] -/
#guard_msgs (whitespace := lax) in
#print axioms RT.C93_order
/-- info: 'RT.C93_singlets' depends on axioms: [propext, Classical.choice, Quot.sound] -/
#guard_msgs (whitespace := lax) in
#print axioms RT.C93_singlets
/-- info: 'RT.C94_through' depends on axioms: [propext, Classical.choice, Quot.sound] -/
#guard_msgs (whitespace := lax) in
#print axioms RT.C94_through
/-- info: 'RT.C94_flipped' depends on axioms: [propext, Classical.choice, Quot.sound] -/
#guard_msgs (whitespace := lax) in
#print axioms RT.C94_flipped
/-- info: 'RT.C94_focus' depends on axioms: [propext, Classical.choice, Quot.sound] -/
#guard_msgs (whitespace := lax) in
#print axioms RT.C94_focus
/-- info: 'RT.C94_collects' depends on axioms: [propext, Classical.choice, Quot.sound] -/
#guard_msgs (whitespace := lax) in
#print axioms RT.C94_collects
/-- info: 'RT.C94_catalogue' depends on axioms: [propext, Classical.choice, Quot.sound] -/
#guard_msgs (whitespace := lax) in
#print axioms RT.C94_catalogue
/-- info: 'RT.C94_sizes' depends on axioms: [propext, Classical.choice, Quot.sound] -/
#guard_msgs (whitespace := lax) in
#print axioms RT.C94_sizes
/-- info: 'RT.C94_field' depends on axioms: [propext, Classical.choice, Quot.sound] -/
#guard_msgs (whitespace := lax) in
#print axioms RT.C94_field
/-- info: 'RT.C94_violated' depends on axioms: [propext, Classical.choice, Quot.sound] -/
#guard_msgs (whitespace := lax) in
#print axioms RT.C94_violated
/-- info: 'RT.C95_python_through' depends on axioms: [propext, Classical.choice, Quot.sound] -/
#guard_msgs (whitespace := lax) in
#print axioms RT.C95_python_through
/-- info: 'RT.C95_python_blocked' depends on axioms: [propext, Classical.choice, Quot.sound] -/
#guard_msgs (whitespace := lax) in
#print axioms RT.C95_python_blocked
/-- info: 'RT.C95_python_positions' depends on axioms: [propext, Classical.choice, Quot.sound] -/
#guard_msgs (whitespace := lax) in
#print axioms RT.C95_python_positions
/-- info: 'RT.C95_limits' depends on axioms: [propext, Classical.choice, Quot.sound] -/
#guard_msgs (whitespace := lax) in
#print axioms RT.C95_limits
/-- info: 'RT.C95_python_example' depends on axioms: [propext, Classical.choice, Quot.sound] -/
#guard_msgs (whitespace := lax) in
#print axioms RT.C95_python_example
/-- info: 'RT.C95_python_overflow' depends on axioms: [propext, Classical.choice, Quot.sound] -/
#guard_msgs (whitespace := lax) in
#print axioms RT.C95_python_overflow
/-- info: 'RT.C95_reference' depends on axioms: [propext, Classical.choice, Quot.sound] -/
#guard_msgs (whitespace := lax) in
#print axioms RT.C95_reference
/-- info: 'RT.C95_through' depends on axioms: [propext, Classical.choice, Quot.sound] -/
#guard_msgs (whitespace := lax) in
#print axioms RT.C95_through
/-- info: 'RT.C95_blocked' depends on axioms: [propext, Classical.choice, Quot.sound] -/
#guard_msgs (whitespace := lax) in
#print axioms RT.C95_blocked
/-- info: 'RT.C95_agree' depends on axioms: [propext, Classical.choice, Quot.sound] -/
#guard_msgs (whitespace := lax) in
#print axioms RT.C95_agree
/-- info: 'RT.C95_positions' depends on axioms: [propext, Classical.choice, Quot.sound] -/
#guard_msgs (whitespace := lax) in
#print axioms RT.C95_positions
/-- info: 'RT.C95_bound' depends on axioms: [propext, Classical.choice, Quot.sound] -/
#guard_msgs (whitespace := lax) in
#print axioms RT.C95_bound
/-- info: 'RT.C95_double' depends on axioms: [propext, Classical.choice, Quot.sound] -/
#guard_msgs (whitespace := lax) in
#print axioms RT.C95_double
/-- info: 'RT.C95_example' depends on axioms: [propext, Classical.choice, Quot.sound] -/
#guard_msgs (whitespace := lax) in
#print axioms RT.C95_example
/-- info: 'RT.C96_python_matrix' depends on axioms: [propext, Classical.choice, Quot.sound] -/
#guard_msgs (whitespace := lax) in
#print axioms RT.C96_python_matrix
/-- info: 'RT.C96_python_accepted' depends on axioms: [propext, Classical.choice, Quot.sound] -/
#guard_msgs (whitespace := lax) in
#print axioms RT.C96_python_accepted
/-- info: 'RT.C96_python_moderate' depends on axioms: [propext, Classical.choice, Quot.sound] -/
#guard_msgs (whitespace := lax) in
#print axioms RT.C96_python_moderate
/-- info: 'RT.C96_python_violated' depends on axioms: [propext, Classical.choice, Quot.sound] -/
#guard_msgs (whitespace := lax) in
#print axioms RT.C96_python_violated
/-- info: 'RT.C96_python_overflow' depends on axioms: [propext, Classical.choice, Quot.sound] -/
#guard_msgs (whitespace := lax) in
#print axioms RT.C96_python_overflow
/-- info: 'RT.C96_python_example' depends on axioms: [propext, Classical.choice, Quot.sound] -/
#guard_msgs (whitespace := lax) in
#print axioms RT.C96_python_example
/-- info: 'RT.C96_matrix' depends on axioms: [propext, Classical.choice, Quot.sound] -/
#guard_msgs (whitespace := lax) in
#print axioms RT.C96_matrix
/-- info: 'RT.C96_accepted' depends on axioms: [propext, Classical.choice, Quot.sound] -/
#guard_msgs (whitespace := lax) in
#print axioms RT.C96_accepted
/-- info: 'RT.C96_double' depends on axioms: [propext, Classical.choice, Quot.sound] -/
#guard_msgs (whitespace := lax) in
#print axioms RT.C96_double
/-- info: 'RT.C96_example' depends on axioms: [propext, Classical.choice, Quot.sound] -/
#guard_msgs (whitespace := lax) in
#print axioms RT.C96_example
/-- info: 'RT.C96_violated' depends on axioms: [propext, Classical.choice, Quot.sound] -/
#guard_msgs (whitespace := lax) in
#print axioms RT.C96_violated
/-- info: 'RT.C96_media' depends on axioms: [propext, Classical.choice, Quot.sound] -/
#guard_msgs (whitespace := lax) in
#print axioms RT.C96_media
/-- info: 'RT.C96_indices' depends on axioms: [propext, Classical.choice, Quot.sound] -/
#guard_msgs (whitespace := lax) in
#print axioms RT.C96_indices
/-- info: 'RT.C96_room' depends on axioms: [propext, Classical.choice, Quot.sound] -/
#guard_msgs (whitespace := lax) in
#print axioms RT.C96_room
/-- info: 'RT.C96_media_example' depends on axioms: [propext, Classical.choice, Quot.sound] -/
#guard_msgs (whitespace := lax) in
#print axioms RT.C96_media_example
/-- info: 'RT.C97_where' depends on axioms: [propext, Classical.choice, Quot.sound] -/
#guard_msgs (whitespace := lax) in
#print axioms RT.C97_where
/-- info: 'RT.C97_heights' depends on axioms: [propext, Classical.choice, Quot.sound] -/
#guard_msgs (whitespace := lax) in
#print axioms RT.C97_heights
/-- info: 'RT.C97_violated_angles' depends on axioms: [propext, Classical.choice, Quot.sound] -/
#guard_msgs (whitespace := lax) in
#print axioms RT.C97_violated_angles
/-- info: 'RT.C97_example_heights' depends on axioms: [propext, Classical.choice, Quot.sound] -/
#guard_msgs (whitespace := lax) in
#print axioms RT.C97_example_heights
/-- info: 'RT.C97_cut' depends on axioms: [propext, Classical.choice, Quot.sound] -/
#guard_msgs (whitespace := lax) in
#print axioms RT.C97_cut
/-- info: 'RT.C97_violated' depends on axioms: [propext, Classical.choice, Quot.sound] -/
#guard_msgs (whitespace := lax) in
#print axioms RT.C97_violated
/-- info: 'RT.C97_example' depends on axioms: [propext, Classical.choice, Quot.sound] -/
#guard_msgs (whitespace := lax) in
#print axioms RT.C97_example
/-- info: 'RT.C98_afocal' depends on axioms: [propext, Classical.choice, Quot.sound] -/
#guard_msgs (whitespace := lax) in
#print axioms RT.C98_afocal
/-- info: 'RT.C98_focal' depends on axioms: [propext, Classical.choice, Quot.sound] -/
#guard_msgs (whitespace := lax) in
#print axioms RT.C98_focal
/-- info: 'RT.C98_imaging' depends on axioms: [propext, Classical.choice, Quot.sound] -/
#guard_msgs (whitespace := lax) in
#print axioms RT.C98_imaging
/-- info: 'RT.C98_conjugate' depends on axioms: [propext, Classical.choice, Quot.sound] -/
#guard_msgs (whitespace := lax) in
#print axioms RT.C98_conjugate
/-- info: 'RT.C98_defocus' depends on axioms: [propext, Classical.choice, Quot.sound] -/
#guard_msgs (whitespace := lax) in
#print axioms RT.C98_defocus
/-- info: 'RT.C98_double' depends on axioms: [propext, Classical.choice, Quot.sound] -/
#guard_msgs (whitespace := lax) in
#print axioms RT.C98_double
/-- info: 'RT.C98_example' depends on axioms: [propext, Classical.choice, Quot.sound] -/
#guard_msgs (whitespace := lax) in
#print axioms RT.C98_example
/-- info: 'RT.C98_violated' depends on axioms: [propext, Classical.choice, Quot.sound] -/
#guard_msgs (whitespace := lax) in
#print axioms RT.C98_violated
/-- info: 'RT.C99_profile_partial' depends on axioms: [propext, Classical.choice, Quot.sound] -/
#guard_msgs (whitespace := lax) in
#print axioms RT.C99_profile_partial
/-- info: 'RT.C99_end' depends on axioms: [propext, Classical.choice, Quot.sound] -/
#guard_msgs (whitespace := lax) in
#print axioms RT.C99_end
/-- info: 'RT.C99_empty' depends on axioms: [propext, Quot.sound] -/
#guard_msgs (whitespace := lax) in
#print axioms RT.C99_empty
/-- info: 'RT.C99_example' depends on axioms: [propext, Classical.choice, Quot.sound] -/
#guard_msgs (whitespace := lax) in
#print axioms RT.C99_example
/-- info: 'RT.C99_violated' depends on axioms: [propext, Classical.choice, Quot.sound] -/
#guard_msgs (whitespace := lax) in
#print axioms RT.C99_violated
/-- info: 'RT.C100_progress' depends on axioms: [propext, Classical.choice, Quot.sound] -/
#guard_msgs (whitespace := lax) in
#print axioms RT.C100_progress
/-- info: 'RT.C100_when' depends on axioms: [propext, Classical.choice, Quot.sound] -/
#guard_msgs (whitespace := lax) in
#print axioms RT.C100_when
/-- info: 'RT.C100_quiet' depends on axioms: [propext, Quot.sound] -/
#guard_msgs (whitespace := lax) in
#print axioms RT.C100_quiet
/-- info: 'RT.C101_number' depends on axioms: [propext, Classical.choice, Quot.sound] -/
#guard_msgs (whitespace := lax) in
#print axioms RT.C101_number
/-- info: 'RT.C101_matrix' depends on axioms: [propext, Classical.choice, Quot.sound] -/
#guard_msgs (whitespace := lax) in
#print axioms RT.C101_matrix
/-- info: 'RT.C101_float' depends on axioms: [propext, Classical.choice, Quot.sound] -/
#guard_msgs (whitespace := lax) in
#print axioms RT.C101_float
/-- info: 'RT.C101_ties' depends on axioms: [propext, Classical.choice, Quot.sound] -/
#guard_msgs (whitespace := lax) in
#print axioms RT.C101_ties
/-- info: 'RT.C101_same' depends on axioms: [propext, Classical.choice, Quot.sound] -/
#guard_msgs (whitespace := lax) in
#print axioms RT.C101_same
/-- info: 'RT.C101_focal' depends on axioms: [propext, Classical.choice, Quot.sound] -/
#guard_msgs (whitespace := lax) in
#print axioms RT.C101_focal
/-- info: 'RT.C101_violated_weak' depends on axioms: [propext, Classical.choice, Quot.sound] -/
#guard_msgs (whitespace := lax) in
#print axioms RT.C101_violated_weak
/-- info: 'RT.C101_ray' depends on axioms: [propext, Classical.choice, Quot.sound] -/
#guard_msgs (whitespace := lax) in
#print axioms RT.C101_ray
/-- info: 'RT.C101_beam' depends on axioms: [propext, Classical.choice, Quot.sound] -/
#guard_msgs (whitespace := lax) in
#print axioms RT.C101_beam
/-- info: 'RT.C101_beams' depends on axioms: [propext, Classical.choice, Quot.sound] -/
#guard_msgs (whitespace := lax) in
#print axioms RT.C101_beams
/-- info: 'RT.C101_violated_beam' depends on axioms: [propext, Classical.choice, Quot.sound] -/
#guard_msgs (whitespace := lax) in
#print axioms RT.C101_violated_beam
/-- info: 'RT.C102_order' depends on axioms: [propext, Classical.choice, Quot.sound] -/
#guard_msgs (whitespace := lax) in
#print axioms RT.C102_order
/-- info: 'RT.C102_files' depends on axioms: [propext, Classical.choice, Quot.sound] -/
#guard_msgs (whitespace := lax) in
#print axioms RT.C102_files
/-- info: 'RT.C102_once' depends on axioms: [propext, Classical.choice, Quot.sound] -/
#guard_msgs (whitespace := lax) in
#print axioms RT.C102_once
/-- info: 'RT.C102_run' depends on axioms: [propext, Classical.choice, Quot.sound] -/
#guard_msgs (whitespace := lax) in
#print axioms RT.C102_run
/-- info: 'RT.C102_all' depends on axioms: [propext, Classical.choice, Quot.sound] -/
#guard_msgs (whitespace := lax) in
#print axioms RT.C102_all
/-- info: 'RT.C102_listed' depends on axioms: [propext, Classical.choice, Quot.sound] -/
#guard_msgs (whitespace := lax) in
#print axioms RT.C102_listed
/-- info: 'RT.C102_number' depends on axioms: [propext, Classical.choice, Quot.sound] -/
#guard_msgs (whitespace := lax) in
#print axioms RT.C102_number
/-- info: 'RT.C102_violated_zero' depends on axioms: [propext, Classical.choice, Quot.sound] -/
#guard_msgs (whitespace := lax) in
#print axioms RT.C102_violated_zero
/-- info: 'RT.C102_violated_negative' depends on axioms: [propext, Classical.choice, Quot.sound] -/
#guard_msgs (whitespace := lax) in
#print axioms RT.C102_violated_negative
/-- info: 'RT.C102_written' depends on axioms: [propext, Classical.choice, Quot.sound] -/
#guard_msgs (whitespace := lax) in
#print axioms RT.C102_written
/-- info: 'RT.C102_first' depends on axioms: [propext, Classical.choice, Quot.sound] -/
#guard_msgs (whitespace := lax) in
#print axioms RT.C102_first
/-- info: 'RT.C102_violated_unknown' depends on axioms: [propext, Classical.choice, Quot.sound] -/
#guard_msgs (whitespace := lax) in
#print axioms RT.C102_violated_unknown
/-- info: 'RT.C102_raises' depends on axioms: [propext, Classical.choice, Quot.sound] -/
#guard_msgs (whitespace := lax) in
#print axioms RT.C102_raises
/-- info: 'RT.C103_edges' depends on axioms: [propext, Classical.choice, Quot.sound] -/
#guard_msgs (whitespace := lax) in
#print axioms RT.C103_edges
/-- info: 'RT.C103_count' depends on axioms: [propext, Quot.sound] -/
#guard_msgs (whitespace := lax) in
#print axioms RT.C103_count
/-- info: 'RT.C103_text' depends on axioms: [propext, Classical.choice, Quot.sound] -/
#guard_msgs (whitespace := lax) in
#print axioms RT.C103_text
/-- info: 'RT.C103_violated' depends on axioms: [propext, Classical.choice, Quot.sound] -/
#guard_msgs (whitespace := lax) in
#print axioms RT.C103_violated
/-- info: 'RT.C104_menu' depends on axioms: [propext, Classical.choice, Quot.sound] -/
#guard_msgs (whitespace := lax) in
#print axioms RT.C104_menu
/-- info: 'RT.C104_order' depends on axioms: [propext, Classical.choice, Quot.sound] -/
#guard_msgs (whitespace := lax) in
#print axioms RT.C104_order
/-- info: 'RT.C104_select' depends on axioms: [propext, Classical.choice, Quot.sound] -/
#guard_msgs (whitespace := lax) in
#print axioms RT.C104_select
/-- info: 'RT.C104_violated_same' depends on axioms: [propext, Classical.choice, Quot.sound] -/
#guard_msgs (whitespace := lax) in
#print axioms RT.C104_violated_same
/-- info: 'RT.C105_true' depends on axioms: [propext, Quot.sound] -/
#guard_msgs (whitespace := lax) in
#print axioms RT.C105_true
/-- info: 'RT.C105_sorted' depends on axioms: [propext, Quot.sound] -/
#guard_msgs (whitespace := lax) in
#print axioms RT.C105_sorted
/-- info: 'RT.C105_violated' depends on axioms: [propext, Quot.sound] -/
#guard_msgs (whitespace := lax) in
#print axioms RT.C105_violated
/-- info: 'RT.C105_violated_name' depends on axioms: [propext, Quot.sound] -/
#guard_msgs (whitespace := lax) in
#print axioms RT.C105_violated_name
/-- info: 'RT.C106_elements' depends on axioms: [propext] -/
#guard_msgs (whitespace := lax) in
#print axioms RT.C106_elements
/-- info: 'RT.C106_short' depends on axioms: [propext] -/
#guard_msgs (whitespace := lax) in
#print axioms RT.C106_short
/-- info: 'RT.C106_symmetric' depends on axioms: [propext, Classical.choice, Quot.sound] -/
#guard_msgs (whitespace := lax) in
#print axioms RT.C106_symmetric
/-- info: 'RT.C106_append' depends on axioms: [propext, Classical.choice, Quot.sound] -/
#guard_msgs (whitespace := lax) in
#print axioms RT.C106_append
/-- info: 'RT.C106_violated_modes' depends on axioms: [propext, Classical.choice, Quot.sound] -/
#guard_msgs (whitespace := lax) in
#print axioms RT.C106_violated_modes
/-- info: 'RT.C106_violated' depends on axioms: [propext, Classical.choice, Quot.sound] -/
#guard_msgs (whitespace := lax) in
#print axioms RT.C106_violated
/-- info: 'RT.C107_reference' depends on axioms: [propext, Classical.choice, Quot.sound] -/
#guard_msgs (whitespace := lax) in
#print axioms RT.C107_reference
/-- info: 'RT.C107_stop' depends on axioms: [propext, Classical.choice, Quot.sound] -/
#guard_msgs (whitespace := lax) in
#print axioms RT.C107_stop
/-- info: 'RT.C107_agree' depends on axioms: [propext, Classical.choice, Quot.sound] -/
#guard_msgs (whitespace := lax) in
#print axioms RT.C107_agree
/-- info: 'RT.C107_example' depends on axioms: [propext, Classical.choice, Quot.sound] -/
#guard_msgs (whitespace := lax) in
#print axioms RT.C107_example
/-- info: 'RT.C107_violated' depends on axioms: [propext, Classical.choice, Quot.sound] -/
#guard_msgs (whitespace := lax) in
#print axioms RT.C107_violated
/-- info: 'RT.C108_chief' depends on axioms: [propext, Classical.choice, Quot.sound] -/
#guard_msgs (whitespace := lax) in
#print axioms RT.C108_chief
/-- info: 'RT.C108_marginal' depends on axioms: [propext, Classical.choice, Quot.sound] -/
#guard_msgs (whitespace := lax) in
#print axioms RT.C108_marginal
/-- info: 'RT.C108_pupil' depends on axioms: [propext, Classical.choice, Quot.sound] -/
#guard_msgs (whitespace := lax) in
#print axioms RT.C108_pupil
/-- info: 'RT.C108_example' depends on axioms: [propext, Classical.choice, Quot.sound] -/
#guard_msgs (whitespace := lax) in
#print axioms RT.C108_example
/-- info: 'RT.C109_session' depends on axioms: [propext, Classical.choice, Quot.sound] -/
#guard_msgs (whitespace := lax) in
#print axioms RT.C109_session
/-- info: 'RT.C109_another' depends on axioms: [propext, Classical.choice, Quot.sound] -/
#guard_msgs (whitespace := lax) in
#print axioms RT.C109_another
/-- info: 'RT.C109_kept' depends on axioms: [propext, Classical.choice, Quot.sound] -/
#guard_msgs (whitespace := lax) in
#print axioms RT.C109_kept
/-- info: 'RT.C109_append' depends on axioms: [propext, Classical.choice, Quot.sound] -/
#guard_msgs (whitespace := lax) in
#print axioms RT.C109_append
/-- info: 'RT.C109_violated' depends on axioms: [propext, Quot.sound] -/
#guard_msgs (whitespace := lax) in
#print axioms RT.C109_violated
/-- info: 'RT.C109_stale' depends on axioms: [propext, Classical.choice, Quot.sound] -/
#guard_msgs (whitespace := lax) in
#print axioms RT.C109_stale
/-- info: 'RT.C109_path' depends on axioms: [propext, Classical.choice, Quot.sound] -/
#guard_msgs (whitespace := lax) in
#print axioms RT.C109_path
/-- info: 'RT.C110_display' depends on axioms: [propext, Classical.choice, Quot.sound] -/
#guard_msgs (whitespace := lax) in
#print axioms RT.C110_display
/-- info: 'RT.C110_with_object' depends on axioms: [propext, Classical.choice, Quot.sound] -/
#guard_msgs (whitespace := lax) in
#print axioms RT.C110_with_object
/-- info: 'RT.C110_violated_raises' depends on axioms: [propext, Classical.choice, Quot.sound] -/
#guard_msgs (whitespace := lax) in
#print axioms RT.C110_violated_raises
/-- info: 'RT.C110_violated_zero' depends on axioms: [propext, Classical.choice, Quot.sound] -/
#guard_msgs (whitespace := lax) in
#print axioms RT.C110_violated_zero
/-- info: 'RT.C110_violated_large' depends on axioms: [propext, Classical.choice, Quot.sound] -/
#guard_msgs (whitespace := lax) in
#print axioms RT.C110_violated_large
/-- info: 'RT.C110_angle_partial' depends on axioms: [propext, Classical.choice, Quot.sound] -/
#guard_msgs (whitespace := lax) in
#print axioms RT.C110_angle_partial
/-- info: 'RT.C110_violated_any' depends on axioms: [propext, Classical.choice, Quot.sound] -/
#guard_msgs (whitespace := lax) in
#print axioms RT.C110_violated_any
/-- info: 'RT.C110_violated_nan' depends on axioms: [propext, Classical.choice, Quot.sound] -/
#guard_msgs (whitespace := lax) in
#print axioms RT.C110_violated_nan
/-- info: 'RT.C111_rays' depends on axioms: [propext, Classical.choice, Quot.sound] -/
#guard_msgs (whitespace := lax) in
#print axioms RT.C111_rays
/-- info: 'RT.C111_count' depends on axioms: [propext, Classical.choice, Quot.sound] -/
#guard_msgs (whitespace := lax) in
#print axioms RT.C111_count
/-- info: 'RT.C111_cosine' depends on axioms: [propext, Classical.choice, Quot.sound] -/
#guard_msgs (whitespace := lax) in
#print axioms RT.C111_cosine
/-- info: 'RT.C111_negative' depends on axioms: [propext, Classical.choice, Quot.sound] -/
#guard_msgs (whitespace := lax) in
#print axioms RT.C111_negative
/-- info: 'RT.C111_emits' depends on axioms: [propext, Classical.choice, Quot.sound] -/
#guard_msgs (whitespace := lax) in
#print axioms RT.C111_emits
/-- info: 'RT.C111_violated_few' depends on axioms: [propext, Classical.choice, Quot.sound] -/
#guard_msgs (whitespace := lax) in
#print axioms RT.C111_violated_few
/-- info: 'RT.C111_violated_even' depends on axioms: [propext, Classical.choice, Quot.sound] -/
#guard_msgs (whitespace := lax) in
#print axioms RT.C111_violated_even
/-- info: 'RT.C111_violated_height' depends on axioms: [propext, Classical.choice, Quot.sound] -/
#guard_msgs (whitespace := lax) in
#print axioms RT.C111_violated_height
/-- info: 'RT.C111_refused' depends on axioms: [propext, Classical.choice, Quot.sound] -/
#guard_msgs (whitespace := lax) in
#print axioms RT.C111_refused
/-- info: 'RT.C112_rays' depends on axioms: [propext, Classical.choice, Quot.sound] -/
#guard_msgs (whitespace := lax) in
#print axioms RT.C112_rays
/-- info: 'RT.RandomRays.C112_visits' depends on axioms: [propext, Classical.choice, Quot.sound] -/
#guard_msgs (whitespace := lax) in
#print axioms RT.RandomRays.C112_visits
/-- info: 'RT.RandomRays.C112_append_partial' depends on axioms: [propext, Classical.choice, Quot.sound] -/
#guard_msgs (whitespace := lax) in
#print axioms RT.RandomRays.C112_append_partial
/-- info: 'RT.RandomRays.C112_violated_append' depends on axioms: [propext, Classical.choice, Quot.sound] -/
#guard_msgs (whitespace := lax) in
#print axioms RT.RandomRays.C112_violated_append
/-- info: 'RT.C112_violated_lamp' depends on axioms: [propext, Classical.choice, Quot.sound] -/
#guard_msgs (whitespace := lax) in
#print axioms RT.C112_violated_lamp
/-- info: 'RT.C112_violated_load' depends on axioms: [propext, Classical.choice, Quot.sound] -/
#guard_msgs (whitespace := lax) in
#print axioms RT.C112_violated_load
/-- info: 'RT.C112_violated_short' depends on axioms: [propext, Classical.choice, Quot.sound] -/
#guard_msgs (whitespace := lax) in
#print axioms RT.C112_violated_short
/-- info: 'RT.C113_stable' depends on axioms: [propext, Classical.choice, Quot.sound] -/
#guard_msgs (whitespace := lax) in
#print axioms RT.C113_stable
/-- info: 'RT.C113_noPower' depends on axioms: [propext, Classical.choice, Quot.sound] -/
#guard_msgs (whitespace := lax) in
#print axioms RT.C113_noPower
/-- info: 'RT.C113_example' depends on axioms: [propext, Classical.choice, Quot.sound] -/
#guard_msgs (whitespace := lax) in
#print axioms RT.C113_example
/-- info: 'RT.C113_violated' depends on axioms: [propext, Classical.choice, Quot.sound] -/
#guard_msgs (whitespace := lax) in
#print axioms RT.C113_violated
/-- info: 'RT.C114_trace' depends on axioms: [propext, Classical.choice, Quot.sound] -/
#guard_msgs (whitespace := lax) in
#print axioms RT.C114_trace
/-- info: 'RT.C114_matrix' depends on axioms: [propext, Classical.choice, Quot.sound] -/
#guard_msgs (whitespace := lax) in
#print axioms RT.C114_matrix
/-- info: 'RT.C114_confined' depends on axioms: [propext, Classical.choice, Quot.sound] -/
#guard_msgs (whitespace := lax) in
#print axioms RT.C114_confined
/-- info: 'RT.C114_air' depends on axioms: [propext, Classical.choice, Quot.sound] -/
#guard_msgs (whitespace := lax) in
#print axioms RT.C114_air
/-- info: 'RT.C114_example' depends on axioms: [propext, Classical.choice, Quot.sound] -/
#guard_msgs (whitespace := lax) in
#print axioms RT.C114_example
/-- info: 'RT.C115_field' depends on axioms: [propext, Classical.choice, Quot.sound] -/
#guard_msgs (whitespace := lax) in
#print axioms RT.C115_field
/-- info: 'RT.C115_exact' depends on axioms: [propext, Classical.choice, Quot.sound] -/
#guard_msgs (whitespace := lax) in
#print axioms RT.C115_exact
/-- info: 'RT.C115_whole' depends on axioms: [propext, Classical.choice, Quot.sound] -/
#guard_msgs (whitespace := lax) in
#print axioms RT.C115_whole
/-- info: 'RT.C115_precision_violated' depends on axioms: [propext, Classical.choice, Quot.sound] -/
#guard_msgs (whitespace := lax) in
#print axioms RT.C115_precision_violated
/-- info: 'RT.C115_example' depends on axioms: [propext, Classical.choice, Quot.sound] -/
#guard_msgs (whitespace := lax) in
#print axioms RT.C115_example
/-- info: 'RT.C116_value' depends on axioms: [propext, Classical.choice, Quot.sound] -/
#guard_msgs (whitespace := lax) in
#print axioms RT.C116_value
/-- info: 'RT.C116_conserved' depends on axioms: [propext, Classical.choice, Quot.sound] -/
#guard_msgs (whitespace := lax) in
#print axioms RT.C116_conserved
/-- info: 'RT.C116_double' depends on axioms: [propext, Classical.choice, Quot.sound] -/
#guard_msgs (whitespace := lax) in
#print axioms RT.C116_double
/-- info: 'RT.C116_violated' depends on axioms: [propext, Classical.choice, Quot.sound] -/
#guard_msgs (whitespace := lax) in
#print axioms RT.C116_violated
/-- info: 'RT.C116_violated_relative' depends on axioms: [propext, Classical.choice, Quot.sound] -/
#guard_msgs (whitespace := lax) in
#print axioms RT.C116_violated_relative
/-- info: 'RT.C116_example' depends on axioms: [propext, Classical.choice, Quot.sound] -/
#guard_msgs (whitespace := lax) in
#print axioms RT.C116_example
/-- info: 'RT.C116_media' depends on axioms: [propext, Classical.choice, Quot.sound] -/
#guard_msgs (whitespace := lax) in
#print axioms RT.C116_media
/-- info: 'RT.C116_violated_glass' depends on axioms: [propext, Classical.choice, Quot.sound] -/
#guard_msgs (whitespace := lax) in
#print axioms RT.C116_violated_glass
/-- info: 'RT.C116_media_example' depends on axioms: [propext, Classical.choice, Quot.sound] -/
#guard_msgs (whitespace := lax) in
#print axioms RT.C116_media_example
/-- info: 'RT.C117_planes' depends on axioms: [propext, Classical.choice, Quot.sound] -/
#guard_msgs (whitespace := lax) in
#print axioms RT.C117_planes
/-- info: 'RT.C117_foci' depends on axioms: [propext, Classical.choice, Quot.sound] -/
#guard_msgs (whitespace := lax) in
#print axioms RT.C117_foci
/-- info: 'RT.C117_rays' depends on axioms: [propext, Classical.choice, Quot.sound] -/
#guard_msgs (whitespace := lax) in
#print axioms RT.C117_rays
/-- info: 'RT.C117_vertices' depends on axioms: [propext, Classical.choice, Quot.sound] -/
#guard_msgs (whitespace := lax) in
#print axioms RT.C117_vertices
/-- info: 'RT.C117_double' depends on axioms: [propext, Classical.choice, Quot.sound] -/
#guard_msgs (whitespace := lax) in
#print axioms RT.C117_double
/-- info: 'RT.C117_violated' depends on axioms: [propext, Classical.choice, Quot.sound] -/
#guard_msgs (whitespace := lax) in
#print axioms RT.C117_violated
/-- info: 'RT.C117_example' depends on axioms: [propext, Classical.choice, Quot.sound] -/
#guard_msgs (whitespace := lax) in
#print axioms RT.C117_example
/-- info: 'RT.C118_returns' depends on axioms: [propext, Classical.choice, Quot.sound] -/
#guard_msgs (whitespace := lax) in
#print axioms RT.C118_returns
/-- info: 'RT.C118_returns_example' depends on axioms: [propext, Classical.choice, Quot.sound] -/
#guard_msgs (whitespace := lax) in
#print axioms RT.C118_returns_example
/-- info: 'RT.C118_forward' depends on axioms: [propext, Classical.choice, Quot.sound] -/
#guard_msgs (whitespace := lax) in
#print axioms RT.C118_forward
/-- info: 'RT.C118_backward' depends on axioms: [propext, Classical.choice, Quot.sound] -/
#guard_msgs (whitespace := lax) in
#print axioms RT.C118_backward
/-- info: 'RT.C118_system' depends on axioms: [propext, Classical.choice, Quot.sound] -/
#guard_msgs (whitespace := lax) in
#print axioms RT.C118_system
/-- info: 'RT.C118_double' depends on axioms: [propext, Classical.choice, Quot.sound] -/
#guard_msgs (whitespace := lax) in
#print axioms RT.C118_double
/-- info: 'RT.C118_object' depends on axioms: [propext, Classical.choice, Quot.sound] -/
#guard_msgs (whitespace := lax) in
#print axioms RT.C118_object
/-- info: 'RT.C118_field' depends on axioms: [propext, Classical.choice, Quot.sound] -/
#guard_msgs (whitespace := lax) in
#print axioms RT.C118_field
/-- info: 'RT.C118_violated' depends on axioms: [propext, Classical.choice, Quot.sound] -/
#guard_msgs (whitespace := lax) in
#print axioms RT.C118_violated
/-- info: 'RT.C118_example' depends on axioms: [propext, Classical.choice, Quot.sound] -/
#guard_msgs (whitespace := lax) in
#print axioms RT.C118_example
/-- info: 'RT.C119_fNumber' depends on axioms: [propext, Classical.choice, Quot.sound] -/
#guard_msgs (whitespace := lax) in
#print axioms RT.C119_fNumber
/-- info: 'RT.C119_NA' depends on axioms: [propext, Classical.choice, Quot.sound] -/
#guard_msgs (whitespace := lax) in
#print axioms RT.C119_NA
/-- info: 'RT.C119_lagrange' depends on axioms: [propext, Classical.choice, Quot.sound] -/
#guard_msgs (whitespace := lax) in
#print axioms RT.C119_lagrange
/-- info: 'RT.C119_sine' depends on axioms: [propext, Classical.choice, Quot.sound] -/
#guard_msgs (whitespace := lax) in
#print axioms RT.C119_sine
/-- info: 'RT.C119_violated' depends on axioms: [propext, Classical.choice, Quot.sound] -/
#guard_msgs (whitespace := lax) in
#print axioms RT.C119_violated
/-- info: 'RT.C119_example' depends on axioms: [propext, Classical.choice, Quot.sound] -/
#guard_msgs (whitespace := lax) in
#print axioms RT.C119_example
/-- info: 'RT.C120_size' depends on axioms: [propext, Classical.choice, Quot.sound] -/
#guard_msgs (whitespace := lax) in
#print axioms RT.C120_size
/-- info: 'RT.C120_waist' depends on axioms: [propext, Classical.choice, Quot.sound] -/
#guard_msgs (whitespace := lax) in
#print axioms RT.C120_waist
/-- info: 'RT.C120_curvature' depends on axioms: [propext, Classical.choice, Quot.sound] -/
#guard_msgs (whitespace := lax) in
#print axioms RT.C120_curvature
/-- info: 'RT.C120_roundTrip' depends on axioms: [propext, Classical.choice, Quot.sound] -/
#guard_msgs (whitespace := lax) in
#print axioms RT.C120_roundTrip
/-- info: 'RT.C120_after' depends on axioms: [propext, Classical.choice, Quot.sound] -/
#guard_msgs (whitespace := lax) in
#print axioms RT.C120_after
/-- info: 'RT.C120_python' depends on axioms: [propext, Classical.choice, Quot.sound] -/
#guard_msgs (whitespace := lax) in
#print axioms RT.C120_python
/-- info: 'RT.C120_roundTrip_example' depends on axioms: [propext, Classical.choice, Quot.sound] -/
#guard_msgs (whitespace := lax) in
#print axioms RT.C120_roundTrip_example
/-- info: 'RT.C120_after_example' depends on axioms: [propext, Classical.choice, Quot.sound] -/
#guard_msgs (whitespace := lax) in
#print axioms RT.C120_after_example
/-- info: 'RT.C121_restored' depends on axioms: [propext, Classical.choice, Quot.sound] -/
#guard_msgs (whitespace := lax) in
#print axioms RT.C121_restored
/-- info: 'RT.C121_rounded' depends on axioms: [propext, Classical.choice, Quot.sound] -/
#guard_msgs (whitespace := lax) in
#print axioms RT.C121_rounded
/-- info: 'RT.C121_single' depends on axioms: [propext, Classical.choice, Quot.sound] -/
#guard_msgs (whitespace := lax) in
#print axioms RT.C121_single
/-- info: 'RT.C121_again' depends on axioms: [propext, Classical.choice, Quot.sound] -/
#guard_msgs (whitespace := lax) in
#print axioms RT.C121_again
/-- info: 'RT.C121_example' depends on axioms: [propext, Classical.choice, Quot.sound] -/
#guard_msgs (whitespace := lax) in
#print axioms RT.C121_example
/-- info: 'RT.C121_example_media' depends on axioms: [propext, Classical.choice, Quot.sound] -/
#guard_msgs (whitespace := lax) in
#print axioms RT.C121_example_media
/-- info: 'RT.C121_violated' depends on axioms: [propext, Classical.choice, Quot.sound] -/
#guard_msgs (whitespace := lax) in
#print axioms RT.C121_violated
/-- info: 'RT.C122_mirrored' depends on axioms: [propext, Classical.choice, Quot.sound] -/
#guard_msgs (whitespace := lax) in
#print axioms RT.C122_mirrored
/-- info: 'RT.C122_rounded' depends on axioms: [propext, Classical.choice, Quot.sound] -/
#guard_msgs (whitespace := lax) in
#print axioms RT.C122_rounded
/-- info: 'RT.C122_accepted' depends on axioms: [propext, Classical.choice, Quot.sound] -/
#guard_msgs (whitespace := lax) in
#print axioms RT.C122_accepted
/-- info: 'RT.C122_matrix' depends on axioms: [propext, Classical.choice, Quot.sound] -/
#guard_msgs (whitespace := lax) in
#print axioms RT.C122_matrix
/-- info: 'RT.C122_double' depends on axioms: [propext, Classical.choice, Quot.sound] -/
#guard_msgs (whitespace := lax) in
#print axioms RT.C122_double
/-- info: 'RT.C122_example' depends on axioms: [propext, Classical.choice, Quot.sound] -/
#guard_msgs (whitespace := lax) in
#print axioms RT.C122_example
/-- info: 'RT.C122_violated' depends on axioms: [propext, Classical.choice, Quot.sound] -/
#guard_msgs (whitespace := lax) in
#print axioms RT.C122_violated
/-- info: 'RT.Saving.C123_returns_iff' depends on axioms: [propext, Quot.sound] -/
#guard_msgs (whitespace := lax) in
#print axioms RT.Saving.C123_returns_iff
/-- info: 'RT.Saving.C123_never_violated' depends on axioms: [propext, Quot.sound] -/
#guard_msgs (whitespace := lax) in
#print axioms RT.Saving.C123_never_violated
/-- info: 'RT.Saving.C123_never_example' depends on axioms: [propext, Quot.sound] -/
#guard_msgs (whitespace := lax) in
#print axioms RT.Saving.C123_never_example
/-- info: 'RT.Saving.C123_interrupt_violated' depends on axioms: [propext, Quot.sound] -/
#guard_msgs (whitespace := lax) in
#print axioms RT.Saving.C123_interrupt_violated
/-- info: 'RT.Saving.C123_prefix' depends on axioms: [propext] -/
#guard_msgs (whitespace := lax) in
#print axioms RT.Saving.C123_prefix
/-- info: 'RT.Saving.C123_saved' depends on axioms: [propext, Quot.sound] -/
#guard_msgs (whitespace := lax) in
#print axioms RT.Saving.C123_saved
/-- info: 'RT.Saving.C123_rays_complete' depends on axioms: [propext, Quot.sound] -/
#guard_msgs (whitespace := lax) in
#print axioms RT.Saving.C123_rays_complete
/-- info: 'RT.Saving.C123_group_violated' depends on axioms: [propext, Quot.sound] -/
#guard_msgs (whitespace := lax) in
#print axioms RT.Saving.C123_group_violated
/-- info: 'RT.Saving.C123_killed_violated' depends on axioms: [propext, Quot.sound] -/
#guard_msgs (whitespace := lax) in
#print axioms RT.Saving.C123_killed_violated
/-- info: 'RT.Saving.C123_rays_killed_violated' depends on axioms: [propext, Quot.sound] -/
#guard_msgs (whitespace := lax) in
#print axioms RT.Saving.C123_rays_killed_violated
/-- info: 'RT.Saving.C123_unpicklable_violated' depends on axioms: [propext, Quot.sound] -/
#guard_msgs (whitespace := lax) in
#print axioms RT.Saving.C123_unpicklable_violated
/-- info: 'RT.Saving.C123_example' depends on axioms: [propext, Quot.sound] -/
#guard_msgs (whitespace := lax) in
#print axioms RT.Saving.C123_example
/-- info: 'RT.C124_fan' depends on axioms: [propext, Classical.choice, Quot.sound] -/
#guard_msgs (whitespace := lax) in
#print axioms RT.C124_fan
/-- info: 'RT.C124_order' depends on axioms: [propext, Classical.choice, Quot.sound] -/
#guard_msgs (whitespace := lax) in
#print axioms RT.C124_order
/-- info: 'RT.C124_first' depends on axioms: [propext, Classical.choice, Quot.sound] -/
#guard_msgs (whitespace := lax) in
#print axioms RT.C124_first
/-- info: 'RT.C124_inside' depends on axioms: [propext, Classical.choice, Quot.sound] -/
#guard_msgs (whitespace := lax) in
#print axioms RT.C124_inside
/-- info: 'RT.C124_spaced' depends on axioms: [propext, Classical.choice, Quot.sound] -/
#guard_msgs (whitespace := lax) in
#print axioms RT.C124_spaced
/-- info: 'RT.C124_uniform' depends on axioms: [propext, Classical.choice, Quot.sound] -/
#guard_msgs (whitespace := lax) in
#print axioms RT.C124_uniform
/-- info: 'RT.C124_double' depends on axioms: [propext, Classical.choice, Quot.sound] -/
#guard_msgs (whitespace := lax) in
#print axioms RT.C124_double
/-- info: 'RT.C124_last_violated' depends on axioms: [propext, Classical.choice, Quot.sound] -/
#guard_msgs (whitespace := lax) in
#print axioms RT.C124_last_violated
/-- info: 'RT.C124_middle_violated' depends on axioms: [propext, Classical.choice, Quot.sound] -/
#guard_msgs (whitespace := lax) in
#print axioms RT.C124_middle_violated
/-- info: 'RT.C124_example' depends on axioms: [propext, Classical.choice, Quot.sound] -/
#guard_msgs (whitespace := lax) in
#print axioms RT.C124_example
/-- info: 'RT.C125_mode' depends on axioms: [propext, Classical.choice, Quot.sound] -/
#guard_msgs (whitespace := lax) in
#print axioms RT.C125_mode
/-- info: 'RT.C125_trip' depends on axioms: [propext, Classical.choice, Quot.sound] -/
#guard_msgs (whitespace := lax) in
#print axioms RT.C125_trip
/-- info: 'RT.C125_example' depends on axioms: [propext, Classical.choice, Quot.sound] -/
#guard_msgs (whitespace := lax) in
#print axioms RT.C125_example
/-- info: 'RT.C126_index' depends on axioms: [propext, Classical.choice, Quot.sound] -/
#guard_msgs (whitespace := lax) in
#print axioms RT.C126_index
/-- info: 'RT.C126_refused' depends on axioms: [propext, Classical.choice, Quot.sound] -/
#guard_msgs (whitespace := lax) in
#print axioms RT.C126_refused
/-- info: 'RT.C126_air' depends on axioms: [propext, Classical.choice, Quot.sound] -/
#guard_msgs (whitespace := lax) in
#print axioms RT.C126_air
/-- info: 'RT.C126_python' depends on axioms: [propext, Classical.choice, Quot.sound] -/
#guard_msgs (whitespace := lax) in
#print axioms RT.C126_python
/-- info: 'RT.C126_example' depends on axioms: [propext, Classical.choice, Quot.sound] -/
#guard_msgs (whitespace := lax) in
#print axioms RT.C126_example
/-- info: 'RT.C126_resonance_violated' depends on axioms: [propext, Classical.choice, Quot.sound] -/
#guard_msgs (whitespace := lax) in
#print axioms RT.C126_resonance_violated
/-- info: 'RT.C126_exact' depends on axioms: [propext, Classical.choice, Quot.sound] -/
#guard_msgs (whitespace := lax) in
#print axioms RT.C126_exact
/-- info: 'RT.C127_created' depends on axioms: [propext, Classical.choice, Quot.sound] -/
#guard_msgs (whitespace := lax) in
#print axioms RT.C127_created
/-- info: 'RT.C127_default' depends on axioms: [propext, Classical.choice, Quot.sound] -/
#guard_msgs (whitespace := lax) in
#print axioms RT.C127_default
/-- info: 'RT.C127_visible' depends on axioms: [propext, Classical.choice, Quot.sound] -/
#guard_msgs (whitespace := lax) in
#print axioms RT.C127_visible
/-- info: 'RT.C127_refused' depends on axioms: [propext, Classical.choice, Quot.sound] -/
#guard_msgs (whitespace := lax) in
#print axioms RT.C127_refused
/-- info: 'RT.C127_exact' depends on axioms: [propext, Classical.choice, Quot.sound] -/
#guard_msgs (whitespace := lax) in
#print axioms RT.C127_exact
/-- info: 'RT.C127_example' depends on axioms: [propext, Classical.choice, Quot.sound] -/
#guard_msgs (whitespace := lax) in
#print axioms RT.C127_example
/-- info: 'RT.C128_shifts' depends on axioms: [propext, Classical.choice, Quot.sound] -/
#guard_msgs (whitespace := lax) in
#print axioms RT.C128_shifts
/-- info: 'RT.C128_visible' depends on axioms: [propext, Classical.choice, Quot.sound] -/
#guard_msgs (whitespace := lax) in
#print axioms RT.C128_visible
/-- info: 'RT.C128_default' depends on axioms: [propext, Classical.choice, Quot.sound] -/
#guard_msgs (whitespace := lax) in
#print axioms RT.C128_default
/-- info: 'RT.C128_order' depends on axioms: [propext, Classical.choice, Quot.sound] -/
#guard_msgs (whitespace := lax) in
#print axioms RT.C128_order
/-- info: 'RT.C128_refused' depends on axioms: [propext, Classical.choice, Quot.sound] -/
#guard_msgs (whitespace := lax) in
#print axioms RT.C128_refused
/-- info: 'RT.C129_found' depends on axioms: [propext, Classical.choice, Quot.sound] -/
#guard_msgs (whitespace := lax) in
#print axioms RT.C129_found
/-- info: 'RT.C129_itself' depends on axioms: [propext, Classical.choice, Quot.sound] -/
#guard_msgs (whitespace := lax) in
#print axioms RT.C129_itself
/-- info: 'RT.C129_exact' depends on axioms: [propext, Classical.choice, Quot.sound] -/
#guard_msgs (whitespace := lax) in
#print axioms RT.C129_exact
/-- info: 'RT.C130_upTo' depends on axioms: [propext, Classical.choice, Quot.sound] -/
#guard_msgs (whitespace := lax) in
#print axioms RT.C130_upTo
/-- info: 'RT.C130_conjugates' depends on axioms: [propext, Classical.choice, Quot.sound] -/
#guard_msgs (whitespace := lax) in
#print axioms RT.C130_conjugates
/-- info: 'RT.C130_rays' depends on axioms: [propext, Classical.choice, Quot.sound] -/
#guard_msgs (whitespace := lax) in
#print axioms RT.C130_rays
/-- info: 'RT.C130_violated' depends on axioms: [propext, Classical.choice, Quot.sound] -/
#guard_msgs (whitespace := lax) in
#print axioms RT.C130_violated
/-- info: 'RT.C130_example' depends on axioms: [propext, Classical.choice, Quot.sound] -/
#guard_msgs (whitespace := lax) in
#print axioms RT.C130_example
/-- info: 'RT.C130_returns' depends on axioms: [propext, Classical.choice, Quot.sound] -/
#guard_msgs (whitespace := lax) in
#print axioms RT.C130_returns
/-- info: 'RT.C130_returns_example' depends on axioms: [propext, Classical.choice, Quot.sound] -/
#guard_msgs (whitespace := lax) in
#print axioms RT.C130_returns_example
/-- info: 'RT.C131_counts' depends on axioms: [propext, Classical.choice, Quot.sound] -/
#guard_msgs (whitespace := lax) in
#print axioms RT.C131_counts
/-- info: 'RT.C131_every_ray' depends on axioms: [propext, Classical.choice, Quot.sound] -/
#guard_msgs (whitespace := lax) in
#print axioms RT.C131_every_ray
/-- info: 'RT.C131_numpy' depends on axioms: [propext, Classical.choice, Quot.sound] -/
#guard_msgs (whitespace := lax) in
#print axioms RT.C131_numpy
/-- info: 'RT.C131_double' depends on axioms: [propext, Classical.choice, Quot.sound] -/
#guard_msgs (whitespace := lax) in
#print axioms RT.C131_double
/-- info: 'RT.C131_example' depends on axioms: [propext, Classical.choice, Quot.sound] -/
#guard_msgs (whitespace := lax) in
#print axioms RT.C131_example
/-- info: 'RT.C132_made' depends on axioms: [propext, Classical.choice, Quot.sound] -/
#guard_msgs (whitespace := lax) in
#print axioms RT.C132_made
/-- info: 'RT.C132_ray' depends on axioms: [propext, Classical.choice, Quot.sound] -/
#guard_msgs (whitespace := lax) in
#print axioms RT.C132_ray
/-- info: 'RT.C132_symmetric' depends on axioms: [propext, Classical.choice, Quot.sound] -/
#guard_msgs (whitespace := lax) in
#print axioms RT.C132_symmetric
/-- info: 'RT.C132_focal_line' depends on axioms: [propext, Classical.choice, Quot.sound] -/
#guard_msgs (whitespace := lax) in
#print axioms RT.C132_focal_line
/-- info: 'RT.C132_double' depends on axioms: [propext, Classical.choice, Quot.sound] -/
#guard_msgs (whitespace := lax) in
#print axioms RT.C132_double
/-- info: 'RT.C132_example' depends on axioms: [propext, Classical.choice, Quot.sound] -/
#guard_msgs (whitespace := lax) in
#print axioms RT.C132_example
/-- info: 'RT.Zmx.C133_program' depends on axioms: [propext, Classical.choice, Quot.sound] -/
#guard_msgs (whitespace := lax) in
#print axioms RT.Zmx.C133_program
/-- info: 'RT.Zmx.C133_matrix' depends on axioms: [propext, Classical.choice, Quot.sound] -/
#guard_msgs (whitespace := lax) in
#print axioms RT.Zmx.C133_matrix
/-- info: 'RT.Zmx.C133_made' depends on axioms: [propext, Classical.choice, Quot.sound] -/
#guard_msgs (whitespace := lax) in
#print axioms RT.Zmx.C133_made
/-- info: 'RT.Zmx.C133_example' depends on axioms: [propext, Classical.choice, Quot.sound] -/
#guard_msgs (whitespace := lax) in
#print axioms RT.Zmx.C133_example
/-- info: 'RT.C134_rays' depends on axioms: [propext, Classical.choice, Quot.sound] -/
#guard_msgs (whitespace := lax) in
#print axioms RT.C134_rays
/-- info: 'RT.C134_bounds' depends on axioms: [propext, Classical.choice, Quot.sound] -/
#guard_msgs (whitespace := lax) in
#print axioms RT.C134_bounds
/-- info: 'RT.C134_cosine' depends on axioms: [propext, Classical.choice, Quot.sound] -/
#guard_msgs (whitespace := lax) in
#print axioms RT.C134_cosine
/-- info: 'RT.C134_same' depends on axioms: [propext, Classical.choice, Quot.sound] -/
#guard_msgs (whitespace := lax) in
#print axioms RT.C134_same
/-- info: 'RT.C134_double' depends on axioms: [propext, Classical.choice, Quot.sound] -/
#guard_msgs (whitespace := lax) in
#print axioms RT.C134_double
/-- info: 'RT.C134_emits' depends on axioms: [propext, Classical.choice, Quot.sound] -/
#guard_msgs (whitespace := lax) in
#print axioms RT.C134_emits
/-- info: 'RT.C134_example' depends on axioms: [propext, Classical.choice, Quot.sound] -/
#guard_msgs (whitespace := lax) in
#print axioms RT.C134_example
/-- info: 'RT.C135_inside' depends on axioms: [propext, Classical.choice, Quot.sound] -/
#guard_msgs (whitespace := lax) in
#print axioms RT.C135_inside
/-- info: 'RT.C135_point' depends on axioms: [propext, Classical.choice, Quot.sound] -/
#guard_msgs (whitespace := lax) in
#print axioms RT.C135_point
/-- info: 'RT.C135_uniform' depends on axioms: [propext, Classical.choice, Quot.sound] -/
#guard_msgs (whitespace := lax) in
#print axioms RT.C135_uniform
/-- info: 'RT.C135_lambertian' depends on axioms: [propext, Classical.choice, Quot.sound] -/
#guard_msgs (whitespace := lax) in
#print axioms RT.C135_lambertian
/-- info: 'RT.C135_gaussian' depends on axioms: [propext, Classical.choice, Quot.sound] -/
#guard_msgs (whitespace := lax) in
#print axioms RT.C135_gaussian
/-- info: 'RT.C135_double' depends on axioms: [propext, Classical.choice, Quot.sound] -/
#guard_msgs (whitespace := lax) in
#print axioms RT.C135_double
/-- info: 'RT.C135_reached' depends on axioms: [propext, Classical.choice, Quot.sound] -/
#guard_msgs (whitespace := lax) in
#print axioms RT.C135_reached
/-- info: 'RT.C135_example' depends on axioms: [propext, Classical.choice, Quot.sound] -/
#guard_msgs (whitespace := lax) in
#print axioms RT.C135_example
/-- info: 'RT.C136_binary64' depends on axioms: [propext, Classical.choice, Quot.sound] -/
#guard_msgs (whitespace := lax) in
#print axioms RT.C136_binary64
/-- info: 'RT.C136_binary64_example' depends on axioms: [propext, Classical.choice, Quot.sound] -/
#guard_msgs (whitespace := lax) in
#print axioms RT.C136_binary64_example
/-- info: 'RT.C136_end' depends on axioms: [propext, Classical.choice, Quot.sound] -/
#guard_msgs (whitespace := lax) in
#print axioms RT.C136_end
/-- info: 'RT.C136_within' depends on axioms: [propext, Classical.choice, Quot.sound] -/
#guard_msgs (whitespace := lax) in
#print axioms RT.C136_within
/-- info: 'RT.C136_nested_violated' depends on axioms: [propext, Classical.choice, Quot.sound] -/
#guard_msgs (whitespace := lax) in
#print axioms RT.C136_nested_violated
/-- info: 'RT.C136_example' depends on axioms: [propext, Classical.choice, Quot.sound] -/
#guard_msgs (whitespace := lax) in
#print axioms RT.C136_example
/-- info: 'RT.C137_trace' depends on axioms: [propext, Classical.choice, Quot.sound] -/
#guard_msgs (whitespace := lax) in
#print axioms RT.C137_trace
/-- info: 'RT.C137_axicon' depends on axioms: [propext, Quot.sound] -/
#guard_msgs (whitespace := lax) in
#print axioms RT.C137_axicon
/-- info: 'RT.C137_exact' depends on axioms: [propext, Classical.choice, Quot.sound] -/
#guard_msgs (whitespace := lax) in
#print axioms RT.C137_exact
/-- info: 'RT.C137_rounded' depends on axioms: [propext, Classical.choice, Quot.sound] -/
#guard_msgs (whitespace := lax) in
#print axioms RT.C137_rounded
/-- info: 'RT.C137_python' depends on axioms: [propext, Classical.choice, Quot.sound] -/
#guard_msgs (whitespace := lax) in
#print axioms RT.C137_python
/-- info: 'RT.C137_example' depends on axioms: [propext, Classical.choice, Quot.sound] -/
#guard_msgs (whitespace := lax) in
#print axioms RT.C137_example
/-- info: 'RT.C138_through' depends on axioms: [propext, Classical.choice, Quot.sound] -/
#guard_msgs (whitespace := lax) in
#print axioms RT.C138_through
/-- info: 'RT.C138_made' depends on axioms: [propext, Classical.choice, Quot.sound] -/
#guard_msgs (whitespace := lax) in
#print axioms RT.C138_made
/-- info: 'RT.C138_trace' depends on axioms: [propext, Classical.choice, Quot.sound] -/
#guard_msgs (whitespace := lax) in
#print axioms RT.C138_trace
/-- info: 'RT.C138_focus_violated' depends on axioms: [propext, Classical.choice, Quot.sound] -/
#guard_msgs (whitespace := lax) in
#print axioms RT.C138_focus_violated
/-- info: 'RT.C138_example' depends on axioms: [propext, Classical.choice, Quot.sound] -/
#guard_msgs (whitespace := lax) in
#print axioms RT.C138_example
/-- info: 'RT.C138_accepted' depends on axioms: [propext, Classical.choice, Quot.sound] -/
#guard_msgs (whitespace := lax) in
#print axioms RT.C138_accepted
/-- info: 'RT.C138_matrix' depends on axioms: [propext, Classical.choice, Quot.sound] -/
#guard_msgs (whitespace := lax) in
#print axioms RT.C138_matrix
/-- info: 'RT.C138_rounded_made' depends on axioms: [propext, Classical.choice, Quot.sound] -/
#guard_msgs (whitespace := lax) in
#print axioms RT.C138_rounded_made
/-- info: 'RT.C138_rounded' depends on axioms: [propext, Classical.choice, Quot.sound] -/
#guard_msgs (whitespace := lax) in
#print axioms RT.C138_rounded
/-- info: 'RT.C138_double' depends on axioms: [propext, Classical.choice, Quot.sound] -/
#guard_msgs (whitespace := lax) in
#print axioms RT.C138_double
/-- info: 'RT.C138_decimal_violated' depends on axioms: [propext, Classical.choice, Quot.sound] -/
#guard_msgs (whitespace := lax) in
#print axioms RT.C138_decimal_violated
/-- info: 'RT.C138_double_example' depends on axioms: [propext, Classical.choice, Quot.sound] -/
#guard_msgs (whitespace := lax) in
#print axioms RT.C138_double_example
