lean/.lake/
lean/build/
__pycache__/
