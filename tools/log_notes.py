# notes on single seeded bugs: id -> {"note": ..., "tightened": [...]}
NOTES = {
    "M082": {"note": "No theorem failed at first, as what is written is read back also by the edited reader; C20_only_written_messages_are_accepted was "
             "added, and it failed in a second run.", "tightened": ["C20_only_written_messages_are_accepted"]},
    "M110": {"note": "C47 is about what follows a rejection, whatever the range; the range itself is C59 (C59_accepted_error, which failed)."},
    "M122": {"note": "No theorem failed at first; C58_jacobian_after_rejection was added, and it failed in a second run.",
             "tightened": ["C58_jacobian_after_rejection"]},
    "M166": {"note": "Changes no result: a sender that gives all its surplus is left with exactly the mean.  Expected to survive."},
    "M171": {"note": "Changes no result: the time step of every cell is written afterwards.  Expected to survive."},
    "M200": {"note": "The claim is that of C05 (partition of the problems), which failed; C04 is about planning."},
    "M203": {"note": "The claim is that of C05 (partition of the problems), which failed; C04 is about planning."},
    # found first by a mechanical mutation of the same definition (tools/automut.py), which failed no theorem
    "M199": {"note": "A mechanical edit of this definition had failed no theorem.", "tightened": ["C122_slice"]},
    "M201": {"note": "A mechanical edit of this definition had failed no theorem.", "tightened": ["C122_elements"]},
    "M202": {"note": "A mechanical edit of this definition had failed no theorem.", "tightened": ["C122_elements"]},
    "M204": {"note": "A mechanical edit of this definition had failed no theorem.", "tightened": ["C04_validity_check"]},
    "M205": {"note": "A mechanical edit of this definition had failed no theorem.", "tightened": ["C38_original_layout"]},
    "M206": {"note": "A mechanical edit of this definition had failed no theorem.", "tightened": ["C35_mapper_construction"]},
    "M207": {"note": "A mechanical edit of this definition had failed no theorem.", "tightened": ["C42_history"]},
}
