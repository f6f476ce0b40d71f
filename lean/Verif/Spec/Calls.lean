import Verif.Model.Calls
import Verif.Spec.Exact

/-! What the functions which write single tables are called with. -/

namespace Verif
open Spec

variable {R : FP}

/-- The header written by the call, if it writes one. -/
def WriteCall.header? : WriteCall R → Option OiHeader
  | .header t => some t
  | _ => none

/-- The OI_TARGET table written by the call, if it writes one. -/
def WriteCall.target? : WriteCall R → Option (OiTarget R)
  | .target t => some t
  | _ => none

/-- The OI_ARRAY table written by the call, if it writes one, and its EXTVER. -/
def WriteCall.array? : WriteCall R → Option (OiArray R × Int)
  | .array t v => some (t, v)
  | _ => none

/-- The OI_WAVELENGTH table written by the call, if it writes one, and its EXTVER. -/
def WriteCall.wavelength? : WriteCall R → Option (OiWavelength R × Int)
  | .wavelength t v => some (t, v)
  | _ => none

/-- The OI_CORR table written by the call, if it writes one, and its EXTVER. -/
def WriteCall.corr? : WriteCall R → Option (OiCorr R × Int)
  | .corr t v => some (t, v)
  | _ => none

/-- The OI_INSPOL table written by the call, if it writes one, and its EXTVER. -/
def WriteCall.inspol? : WriteCall R → Option (OiInspol R × Int)
  | .inspol t v => some (t, v)
  | _ => none

/-- The OI_VIS table written by the call, if it writes one, and its EXTVER. -/
def WriteCall.vis? : WriteCall R → Option (OiVis R × Int)
  | .vis t v => some (t, v)
  | _ => none

/-- The OI_VIS2 table written by the call, if it writes one, and its EXTVER. -/
def WriteCall.vis2? : WriteCall R → Option (OiVis2 R × Int)
  | .vis2 t v => some (t, v)
  | _ => none

/-- The OI_T3 table written by the call, if it writes one, and its EXTVER. -/
def WriteCall.t3? : WriteCall R → Option (OiT3 R × Int)
  | .t3 t v => some (t, v)
  | _ => none

/-- The OI_FLUX table written by the call, if it writes one, and its EXTVER. -/
def WriteCall.flux? : WriteCall R → Option (OiFlux R × Int)
  | .flux t v => some (t, v)
  | _ => none

/-- The extension of the file which holds the table of the call. A header makes no extension. -/
def WriteCall.hdu? : WriteCall R → Option (Hdu R)
  | .header _ => none
  | .target t => some (hduTarget t)
  | .array t v => some (hduArray t v)
  | .wavelength t v => some (hduWavelength t v)
  | .corr t v => some (hduCorr t v)
  | .inspol t v => some (hduInspol t v)
  | .vis t v => some (hduVis t v)
  | .vis2 t v => some (hduVis2 t v)
  | .t3 t v => some (hduT3 t v)
  | .flux t v => some (hduFlux t v)

/-- The format can hold what the call writes. -/
def WriteCall.Storable : WriteCall R → Prop
  | .header _ => True
  | .target t => t.Storable
  | .array t _ => t.Storable
  | .wavelength t _ => t.WF
  | .corr t _ => t.WF
  | .inspol t _ => t.Storable
  | .vis t _ => t.Storable
  | .vis2 t _ => t.Storable
  | .t3 t _ => t.Storable
  | .flux t _ => t.Storable

/-- What the call writes can be stored without loss. `int` and `str` are the values of memory which is not initialised.
The Jones matrices of OI_INSPOL tables are always stored with loss. -/
def WriteCall.Exact (today : CStr) (int : Int) (str : CStr) : WriteCall R → Prop
  | .header t => t.Exact today
  | .target t => t.Exact str
  | .array t _ => t.Exact
  | .wavelength t _ => t.Exact
  | .corr t _ => t.Exact
  | .inspol _ _ => False
  | .vis t _ => t.Exact int
  | .vis2 t _ => t.Exact int
  | .t3 t _ => t.Exact int
  | .flux t _ => t.Exact int

/-- The file to be expected: the primary HDU with the keywords of the header, then the tables in the order of the
calls. -/
def Spec.fileOfCalls (today : CStr) (header : OiHeader) (calls : List (WriteCall R)) : List (Hdu R) :=
  hduPrimary today header :: calls.filterMap WriteCall.hdu?

/-- The tables which `demo_write` takes from the text file can be stored. -/
structure DemoInput.Storable (d : DemoInput R) : Prop where
  targets : d.targets.Storable
  array : d.array.Storable
  wave : d.wave.WF
  corr : d.corr.WF
  inspol : d.inspol.Storable
  vis : d.vis.Storable
  vis2 : d.vis2.Storable
  t3 : d.t3.Storable
  flux : d.flux.Storable

end Verif
