#!/bin/sh
# Build, regenerate the manifest, commit with the given message and run vcheck. Nothing is committed when the build fails.
cd /verif/lean && lake build > /tmp/build.txt 2>&1 || { grep -A8 -E "^error" /tmp/build.txt | head -40; echo BUILD FAILED; exit 1; }
cd /verif && python3 tools/manifest.py | tail -1 | cut -c1-300
python3 tools/axioms.py && python3 tools/design.py
git add -A && git commit -qm "$1" && vcheck 2>&1 | tail -1
