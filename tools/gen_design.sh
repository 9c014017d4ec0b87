#!/bin/sh
# DESIGN.md = head + per-property plan + findings
cd "$(dirname "$0")" && python3 props.py && { cat design_head.md; echo "## 5. Per-property plan"; echo; cat plan_table.md; echo; cat design_tail.md; } > ../DESIGN.md
