lean/.lake/
__pycache__/
*.olean
