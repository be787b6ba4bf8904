lean/.lake/
lean/build/
__pycache__/
tools/*.lean
