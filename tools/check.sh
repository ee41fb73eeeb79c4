#!/bin/sh
# Build, regenerate the manifest and commit with the message given as argument.
set -e
cd /verif/lean && lake build > /tmp/build.log 2>&1 || { grep -v "^✔" /tmp/build.log | head -60; exit 1; }
cd /verif && python3 tools/manifest.py && git add -A && git commit -qm "$1" && vcheck 2>&1 | grep VERDICT | cut -c1-1200
