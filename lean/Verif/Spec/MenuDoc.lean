import Verif.Spec.Press
/-
The menu as it is documented: the diagram doc/menu.dia (doc/menu.png).  Nothing in this file is taken from the
program; the boxes, the arrows and the build options are those of the diagram.
-/
namespace Verif.Spec

/-- The boxes of the diagram (doc/menu.dia:122-560, 2039): "show current temperature", "select temperature preset",
    "change temperature preset", "change idle temperature", "enable / disable debug mode", "temperature controller
    adjustment", "change PID controller kp", "… ki", "… kd". -/
inductive Box where
  | show | select | change | idle | debug | adj | kp | ki | kd
  deriving DecidableEq, Repr

/-- The labels of the arrows: "UP/DOWN button (short press)" (doc/menu.dia:795), "UP/DOWN button (hold)"
    (doc/menu.dia:1226), "SET button", and "timeout" (doc/menu.dia:911). -/
inductive Act where
  | short | hold | set | timeout
  deriving DecidableEq, Repr

/-- The arrows of the diagram.  The label "timeout or SET button" (doc/menu.dia:911) stands where the arrows from
    the two preset boxes and from the idle temperature box join; as SET leads from the idle temperature box on to
    the next box (doc/menu.dia:1108), only the timeout is read off it for that box. -/
def diagram : List (Box × Act × Box) :=
  [(.show, .short, .select), (.show, .hold, .change), (.show, .set, .idle),
   (.select, .timeout, .show), (.select, .set, .show),
   (.change, .timeout, .show), (.change, .set, .show),
   (.idle, .timeout, .show), (.idle, .set, .debug),
   (.debug, .set, .adj), (.adj, .set, .kp), (.kp, .set, .ki), (.ki, .set, .kd), (.kd, .set, .show)]

/-- The build options beside the boxes (doc/menu.dia:1290-1866, 1957): the boxes without one are "always
    available".  CONF_PRESETS is on in all builds of the model. -/
def inBuild (c : Conf) : Box → Bool
  | .show | .select | .change => true
  | .idle => c.idle
  | .debug => c.debug
  | .adj => c.adj
  | .kp | .ki | .kd => c.kconf

/-- The end of the arrow with the label `a` at the box `b`. -/
def arrow (b : Box) (a : Act) : Option Box :=
  (diagram.find? fun x => x.1 = b && x.2.1 = a).map fun x => x.2.2

/-- A box that is not in the build is passed along its SET arrow; `n` bounds the number of boxes passed. -/
def enter (c : Conf) : Nat → Box → Box
  | 0, b => b
  | n + 1, b => if inBuild c b then b else ((arrow b .set).map (enter c n)).getD b

/-- Where the action leads from a box, in a build. -/
def follow (c : Conf) (b : Box) (a : Act) : Option Box := (arrow b a).map (enter c 9)

/-- The box a screen belongs to.  The name of a value, which is displayed before the value
    is, belongs to the box of the value. -/
def boxOf : MenuState → Box
  | .curtemp => .show
  | .selpreset => .select
  | .chgpreset => .change
  | .idletemp => .idle
  | .debug => .debug
  | .adjPre | .adj => .adj
  | .kpPre | .kp => .kp
  | .kiPre | .ki => .ki
  | .kdPre | .kd => .kd

/-- The screen displays the name of a value that is about to be displayed. -/
def announces : MenuState → Bool
  | .adjPre | .kpPre | .kiPre | .kdPre => true
  | _ => false

end Verif.Spec
