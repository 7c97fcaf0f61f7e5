#!/bin/bash
# usage: tools/milestone.sh "message"
cd /verif && python3 tools/props.py && tools/imports.sh; cd lean && lake build 2>&1 | grep -v "^trace\|^✔" | tail -5; cd .. && python3 tools/manifest.py && python3 tools/axioms.py && git add -A && git commit -qm "$1" && vcheck
