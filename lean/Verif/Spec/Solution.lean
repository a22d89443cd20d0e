/-!
C87: which attributes a `Solution` shows, in words of its documentation.
-/
namespace PyClaw.Spec

/-- What a solution shows of its first state: time, data and problem parameters, derived quantities and functionals, numbers of
components, and the geometry. -/
def shownAttributes : List String :=
  ["t", "q", "aux", "capa", "problem_data", "num_eqn", "num_aux", "p", "mp", "F", "mF", "gauges",
    "grid", "num_dim", "num_cells", "lower", "upper", "delta", "centers", "edges",
    "p_centers", "p_edges", "c_centers", "c_edges"]

/-- The names that belong to the solution itself: its fields, properties and methods. -/
def ownNames : List String :=
  ["states", "domain", "state", "patch", "start_frame", "_start_frame", "claw_package", "is_valid", "set_all_states",
    "_get_base_state_attribute", "write", "read", "get_read_func", "get_write_func", "plot"]

end PyClaw.Spec
