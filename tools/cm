#!/bin/bash
cd /verif && python3 tools/gen.py && python3 tools/manifest.py && cd lean && (lake build 2>&1 | grep -E "error|Build completed|sorry") ; grep -rnE "sorry|admit|native_decide|bv_decide|maxHeartbeats 0|implemented_by" Verif --include=*.lean | head; cd /verif && git add -A && git commit -qm "$1" && git log --oneline | head -1
